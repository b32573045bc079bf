import Verif.Py.Chars

/-!
# Text of the fixed part of the generated rate files

Written by `/verif/tools/rate_sources.py` from `/repo/Parse_eqn_file.py`: one entry per `f.write`,
the number before it is the line of the call.  In `fortranWrites` the two `%E` conversions of lines
1372–1373 are replaced by the text they produce, and the declaration of `rate_values` (line 1314),
which depends on the mechanism, is left out.
-/

namespace PyBox
namespace Rl

def pyWrites1 : List Str := [
  /- 479 -/ chars% "    # constants used in calculation of reaction rates\n",
  /- 480 -/ chars% "    M  = 2.55E+19  #Check this against pressure assumed in model\n",
  /- 481 -/ chars% "    N2 = 0.79*M\n",
  /- 482 -/ chars% "    O2 = 0.2095*M\n",
  /- 484 -/ chars% "    # kro2no : ro2      + no      = ro      + no2\n",
  /- 485 -/ chars% "    #        : ro2      + no      = rono2\n",
  /- 486 -/ chars% "    # iupac 1992\n",
  /- 487 -/ chars% "    KRONO2    = 2.70E-12*numpy.exp(360.0/temp)\n",
  /- 489 -/ chars% "    KRO2NO = 2.7E-12*numpy.exp(360.0/temp) \n",
  /- 491 -/ chars% "    # kro2ho2: ro2      + ho2     = rooh    + o2\n",
  /- 492 -/ chars% "    # mcm protocol [1997]\n",
  /- 493 -/ chars% "    KRO2HO2   = 2.91E-13*numpy.exp(1300.0/temp)\n",
  /- 495 -/ chars% "    # kapho2 : rcoo2    + ho2     = products\n",
  /- 496 -/ chars% "    # mcm protocol [1997]\n",
  /- 497 -/ chars% "    KAPHO2    = 5.2E-13*numpy.exp(980.0/temp)\n",
  /- 499 -/ chars% "    # kapno  : rcoo2    + no      = products\n",
  /- 500 -/ chars% "    # mej [1998]\n",
  /- 501 -/ chars% "    KAPNO = 7.5E-12*numpy.exp(290.0/temp)\n",
  /- 503 -/ chars% "    # kro2no3: ro2      + no3     = products\n",
  /- 504 -/ chars% "    # mcm protocol [1997]\n",
  /- 505 -/ chars% "    KRO2NO3   = 2.3E-12\n",
  /- 507 -/ chars% "    # kno3al : no3      + rcho    = rcoo2   + hno3\n",
  /- 508 -/ chars% "    # mcm protocol [1997]\n",
  /- 509 -/ chars% "    KNO3AL    = 1.4E-12*numpy.exp(-1860.0/temp)\n",
  /- 511 -/ chars% "    # kdec   : ro                 = products\n",
  /- 512 -/ chars% "    # mcm protocol [1997]\n",
  /- 513 -/ chars% "    KDEC      = 1.00E+06\n",
  /- 515 -/ chars% "    KROSEC = 2.50E-14*numpy.exp(-300.0/temp)\n",
  /- 517 -/ chars% "    KALKOXY=3.70E-14*numpy.exp(-460.0/temp)*O2\n",
  /- 519 -/ chars% "    KALKPXY=1.80E-14*numpy.exp(-260.0/temp)*O2\n"]

def pyWrites2 : List Str := [
  /- 521 -/ chars% "    KROPRIM = 2.50E-14*numpy.exp(-300/temp)\n",
  /- 523 -/ chars% "    KCH3O2 = 1.03E-13*numpy.exp(365/temp)\n",
  /- 525 -/ chars% "    K298CH3O2 = 3.5E-13\n",
  /- 527 -/ chars% "    K14ISOM1 = 3.00E7*numpy.exp(-5300/temp)\t",
  /- 529 -/ chars% "    # -------------------------------------------------------------------\n",
  /- 530 -/ chars% "    # complex reactions\n",
  /- 531 -/ chars% "    # -------------------------------------------------------------------\n",
  /- 533 -/ chars% "    # kfpan kbpan\n",
  /- 534 -/ chars% "    # formation and decomposition of pan\n",
  /- 535 -/ chars% "    # iupac 2001 (mcmv3.2)\n",
  /- 536 -/ chars% "    kc0     = 3.28E-28*M*(temp/300.0)**(-6.87)\n",
  /- 537 -/ chars% "    kci     = 1.125E-11*(temp/300.0)**(-1.105)\n",
  /- 538 -/ chars% "    krc     = kc0/kci\n",
  /- 539 -/ chars% "    fcc     = 0.30\n",
  /- 540 -/ chars% "    nc      = 0.75-(1.27*numpy.log10(fcc))\n",
  /- 541 -/ chars% "    fc      = 10**(numpy.log10(fcc)/(1.0+((numpy.log10(krc))/nc)**2.0))\n",
  /- 542 -/ chars% "    KFPAN   = (kc0*kci)*fc/(kc0+kci)\n",
  /- 544 -/ chars% "    kd0     = 1.10E-05*M*numpy.exp(-10100.0/temp)\n",
  /- 545 -/ chars% "    kdi     = 1.90E+17*numpy.exp(-14100.0/temp)\n",
  /- 546 -/ chars% "    krd     = kd0/kdi\n",
  /- 547 -/ chars% "    fcd     = 0.30\n",
  /- 548 -/ chars% "    ncd     = 0.75-(1.27*numpy.log10(fcd))\n",
  /- 549 -/ chars% "    fd      = 10.0**(numpy.log10(fcd)/(1.0+((numpy.log10(krd))/ncd)**2.0))\n",
  /- 550 -/ chars% "    KBPAN   = (kd0*kdi)*fd/(kd0+kdi)\n",
  /- 552 -/ chars% "    KPPN0     = 1.7E-03*M*numpy.exp(-11280.0/temp)\n",
  /- 553 -/ chars% "    KPPNI     = 8.3E+16*numpy.exp(-13940.0/temp)\n",
  /- 554 -/ chars% "    KRPPN     = KPPN0/KPPNI\n",
  /- 555 -/ chars% "    FCPPN     = 0.36\n",
  /- 556 -/ chars% "    NCPPN     = 0.75-(1.27*numpy.log10(fcd))\n",
  /- 557 -/ chars% "    FPPN      = 10.0**(numpy.log10(fcd)/(1.0+((numpy.log10(krd))/ncd)**2.0))\n"]

def pyWrites3 : List Str := [
  /- 558 -/ chars% "    KBPPN   = (KPPN0*KPPNI)*FCPPN/(KPPN0+KPPNI)\n",
  /- 560 -/ chars% "    # kmt01  : o        + no      = no2\n",
  /- 561 -/ chars% "    # iupac 2001 (mcmv3.2)\n",
  /- 562 -/ chars% "    k10     = 1.00E-31*M*(temp/300.0)**(-1.6)\n",
  /- 564 -/ chars% "    k1i     = 5.0E-11*(temp/300.0)**(0.3)\n",
  /- 565 -/ chars% "    kr1     = k10/k1i\n",
  /- 566 -/ chars% "    fc1     = 0.85\n",
  /- 567 -/ chars% "    nc1     = 0.75-(1.27*numpy.log10(fc1))\n",
  /- 568 -/ chars% "    f1      = 10.0**(numpy.log10(fc1)/(1.0+((numpy.log10(kr1)/nc1))**2.0))\n",
  /- 569 -/ chars% "    KMT01   = (k10*k1i)*f1/(k10+k1i)\n",
  /- 571 -/ chars% "    # kmt02  : o        + no2     = no3\n",
  /- 572 -/ chars% "    # iupac 2001 (mcmv3.2)\n",
  /- 573 -/ chars% "    k20     = 1.30E-31*M*(temp/300.0)**(-1.5)\n",
  /- 574 -/ chars% "    k2i     = 2.30E-11*(temp/300.0)**(0.24)\n",
  /- 575 -/ chars% "    kr2     = k20/k2i\n",
  /- 576 -/ chars% "    fc2     = 0.6\n",
  /- 577 -/ chars% "    nc2     = 0.75-(1.27*numpy.log10(fc2))\n",
  /- 578 -/ chars% "    f2      = 10.0**(numpy.log10(fc2)/(1.0+((numpy.log10(kr2)/nc2))**2.0))\n",
  /- 579 -/ chars% "    KMT02   = (k20*k2i)*f2/(k20+k2i)\n",
  /- 581 -/ chars% "    # kmt03  : no2      + no3     = n2o5\n",
  /- 582 -/ chars% "    # iupac 2006, mcmv3.2\n",
  /- 583 -/ chars% "    k30     = 3.60E-30*M*(temp/300.0)**(-4.1)\n",
  /- 584 -/ chars% "    k3i     = 1.90E-12*(temp/300.0)**(0.2)\n",
  /- 585 -/ chars% "    kr3     = k30/k3i\n",
  /- 586 -/ chars% "    fc3     = 0.35\n",
  /- 587 -/ chars% "    nc3     = 0.75-(1.27*numpy.log10(fc3))\n",
  /- 588 -/ chars% "    f3      = 10.0**(numpy.log10(fc3)/(1.0+((numpy.log10(kr3)/nc3))**2.0))\n",
  /- 589 -/ chars% "    KMT03   = (k30*k3i)*f3/(k30+k3i)\n",
  /- 591 -/ chars% "    # kmt04  : n2o5               = no2     + no3\n",
  /- 592 -/ chars% "    # iupac 2006, mcmv3.2\n"]

def pyWrites4 : List Str := [
  /- 593 -/ chars% "    k40     = 1.30E-03*M*(temp/300.0)**(-3.5)*numpy.exp(-11000.0/temp)\n",
  /- 594 -/ chars% "    k4i     = 9.70E+14*(temp/300.0)**(0.1)*numpy.exp(-11080.0/temp)\n",
  /- 595 -/ chars% "    kr4     = k40/k4i\n",
  /- 596 -/ chars% "    fc4     = 0.35\n",
  /- 597 -/ chars% "    nc4     = 0.75-(1.27*numpy.log10(fc4))\n",
  /- 598 -/ chars% "    f4      = 10.0**(numpy.log10(fc4)/(1+((numpy.log10(kr4)/nc4))**2.0))\n",
  /- 599 -/ chars% "    KMT04   = (k40*k4i)*f4/(k40+k4i)\n",
  /- 601 -/ chars% "    # kmt05  : oh       + co(+o2) = ho2     + co2\n",
  /- 602 -/ chars% "    # iupac 2006\n",
  /- 603 -/ chars% "    KMT05  = 1.44E-13*(1.0 + (M/4.2E19))\n",
  /- 605 -/ chars% "    # kmt06  : ho2      + ho2     = h2o2    + o2\n",
  /- 606 -/ chars% "    # water enhancement factor\n",
  /- 607 -/ chars% "    # iupac 1992\n",
  /- 608 -/ chars% "    KMT06  = 1.0 + (1.40E-21*numpy.exp(2200.0/temp)*H2O)\n",
  /- 610 -/ chars% "    # kmt06  = 1.0 + (2.00E-25*numpy.exp(4670.0/temp)*h2o)\n",
  /- 611 -/ chars% "    # S+R 2005 values\n",
  /- 613 -/ chars% "    # kmt07  : oh       + no      = hono\n",
  /- 615 -/ chars% "    # iupac 2006, mcmv3.2\n",
  /- 616 -/ chars% "    k70     = 7.40E-31*M*(temp/300.0)**(-2.4)\n",
  /- 617 -/ chars% "    k7i     = 3.30E-11*(temp/300.0)**(-0.3)\n",
  /- 618 -/ chars% "    kr7     = k70/k7i\n",
  /- 619 -/ chars% "    fc7     = 0.81 \n",
  /- 620 -/ chars% "    nc7     = 0.75-(1.27*numpy.log10(fc7))\n",
  /- 621 -/ chars% "    f7      = 10.0**(numpy.log10(fc7)/(1+((numpy.log10(kr7)/nc7))**2.0))\n",
  /- 622 -/ chars% "    KMT07   = (k70*k7i)*f7/(k70+k7i)\n",
  /- 624 -/ chars% "    # kmt08  : oh       + no2     = hno3\n",
  /- 626 -/ chars% "    # iupac 2006, mcmv3.2\n",
  /- 627 -/ chars% "    k80     = 3.2E-30*M*(temp/300.0)**(-4.5)\n",
  /- 628 -/ chars% "    k8i     = 3.0E-11\n",
  /- 629 -/ chars% "    kr8     = k80/k8i\n"]

def pyWrites5 : List Str := [
  /- 630 -/ chars% "    fc8     = 0.41\n",
  /- 631 -/ chars% "    nc8     = 0.75-(1.27*numpy.log10(fc8))\n",
  /- 632 -/ chars% "    f8      = 10.0**(numpy.log10(fc8)/(1.0+((numpy.log10(kr8)/nc8))**2.0))\n",
  /- 633 -/ chars% "    KMT08   = (k80*k8i)*f8/(k80+k8i)\n",
  /- 635 -/ chars% "    # kmt09  : ho2      + no2     = ho2no2\n",
  /- 636 -/ chars% "    # iupac 1997, mcmv3.2\n",
  /- 638 -/ chars% "    k90     = 1.4E-31*M*(temp/300.0)**(-3.1)\n",
  /- 639 -/ chars% "    k9i     = 4.0E-12\n",
  /- 640 -/ chars% "    kr9     = k90/k9i\n",
  /- 641 -/ chars% "    fc9     = 0.4\n",
  /- 642 -/ chars% "    nc9     = 0.75-(1.27*numpy.log10(fc9))\n",
  /- 643 -/ chars% "    f9      = 10.0**(numpy.log10(fc9)/(1.0+((numpy.log10(kr9)/nc9))**2.0))\n",
  /- 644 -/ chars% "    KMT09   = (k90*k9i)*f9/(k90+k9i)\n",
  /- 646 -/ chars% "    # kmt10  : ho2no2             = ho2     + no2\n",
  /- 647 -/ chars% "    # iupac 1997, mcmv3.2\n",
  /- 649 -/ chars% "    k100     = 4.10E-05*M*numpy.exp(-10650.0/temp)\n",
  /- 650 -/ chars% "    k10i     = 6.0E+15*numpy.exp(-11170.0/temp)\n",
  /- 651 -/ chars% "    kr10     = k100/k10i\n",
  /- 652 -/ chars% "    fc10     = 0.4\n",
  /- 653 -/ chars% "    nc10     = 0.75-(1.27*numpy.log10(fc10))\n",
  /- 654 -/ chars% "    f10      = 10.0**(numpy.log10(fc10)/(1.0+((numpy.log10(kr10)/nc10))**2.0))\n",
  /- 655 -/ chars% "    KMT10    = (k100*k10i)*f10/(k100+k10i)\n",
  /- 657 -/ chars% "    # kmt11  : oh       + hno3    = h2o     + no3\n",
  /- 658 -/ chars% "    # iupac 2006, mcmv3.2\n",
  /- 660 -/ chars% "    k1     = 2.40E-14*numpy.exp(460.0/temp)\n",
  /- 661 -/ chars% "    k3     = 6.50E-34*numpy.exp(1335.0/temp)\n",
  /- 662 -/ chars% "    k4     = 2.70E-17*numpy.exp(2199.0/temp)\n",
  /- 663 -/ chars% "    k2     = (k3*M)/(1.0+(k3*M/k4))\n",
  /- 664 -/ chars% "    KMT11  = k1 + k2\n",
  /- 666 -/ chars% "    # kmt12 iupac 2006, mcmv3.2\n"]

def pyWrites6 : List Str := [
  /- 668 -/ chars% "    k120 = 2.5E-31*((temp/300.0)**(-2.6))*M\n",
  /- 669 -/ chars% "    k12i = 2.0E-12\n",
  /- 670 -/ chars% "    kr12 = k120/k12i\n",
  /- 671 -/ chars% "    fc12 = 0.53\n",
  /- 672 -/ chars% "    nc12 = 0.75-(1.27*numpy.log10(fc12))\n",
  /- 673 -/ chars% "    f12  = 10.0**(numpy.log10(fc12)/(1.0+((numpy.log10(kr12)/nc12))**2.0))\n",
  /- 674 -/ chars% "    KMT12    = (k120*k12i)*f12/(k120+k12i)\n",
  /- 676 -/ chars% "    # kmt13  : ch3o2    + no2     = ch3o2no2\n",
  /- 677 -/ chars% "    # iupac 2006\n",
  /- 679 -/ chars% "    k130     = 2.50E-30*((temp/300.0)**(-5.5))*M\n",
  /- 680 -/ chars% "    k13i     = 1.80E-11\n",
  /- 681 -/ chars% "    kr13     = k130/k13i\n",
  /- 682 -/ chars% "    fc13     = 0.36\n",
  /- 683 -/ chars% "    nc13     = 0.75-(1.27*numpy.log10(fc13))\n",
  /- 684 -/ chars% "    f13      = 10.0**(numpy.log10(fc13)/(1.0+((numpy.log10(kr13)/nc13))**2.0))\n",
  /- 685 -/ chars% "    KMT13    = (k130*k13i)*f13/(k130+k13i)\n",
  /- 687 -/ chars% "    # kmt14  : ch3o2no2           = ch3o2   + no2\n",
  /- 688 -/ chars% "    # iupac 2006, mcmv3.2\n",
  /- 690 -/ chars% "    k140     = 9.00E-05*numpy.exp(-9690.0/temp)*M\n",
  /- 691 -/ chars% "    k14i     = 1.10E+16*numpy.exp(-10560.0/temp)\n",
  /- 692 -/ chars% "    kr14     = k140/k14i\n",
  /- 693 -/ chars% "    fc14     = 0.36\n",
  /- 694 -/ chars% "    nc14     = 0.75-(1.27*numpy.log10(fc14))\n",
  /- 695 -/ chars% "    f14      = 10.0**(numpy.log10(fc14)/(1.0+((numpy.log10(kr14)/nc14))**2.0))\n",
  /- 696 -/ chars% "    KMT14    = (k140*k14i)*f14/(k140+k14i)\n",
  /- 698 -/ chars% "    # kmt15 iupac 2006, mcmv3.2\n",
  /- 700 -/ chars% "    k150 = 8.60E-29*((temp/300.0)**(-3.1))*M\n",
  /- 701 -/ chars% "    k15i = 9.00E-12*((temp/300.0)**(-0.85))\n",
  /- 702 -/ chars% "    kr15 = k150/k15i\n",
  /- 703 -/ chars% "    fc15 = 0.48\n"]

def pyWrites7 : List Str := [
  /- 704 -/ chars% "    nc15 = 0.75-(1.27*numpy.log10(fc15))\n",
  /- 705 -/ chars% "    f15  = 10.0**(numpy.log10(fc15)/(1.0+((numpy.log10(kr15)/nc15))**2.0))\n",
  /- 706 -/ chars% "    KMT15 = (k150*k15i)*f15/(k150+k15i)\n",
  /- 708 -/ chars% "    # kmt16  :  oh  +  c3h6\n",
  /- 709 -/ chars% "    # iupac 2006\n",
  /- 711 -/ chars% "    k160     = 8.00E-27*((temp/300.0)**(-3.5))*M\n",
  /- 712 -/ chars% "    k16i     = 3.00E-11*((temp/300.0)**(-1.0))\n",
  /- 713 -/ chars% "    kr16     = k160/k16i\n",
  /- 714 -/ chars% "    fc16     = 0.5\n",
  /- 715 -/ chars% "    nc16     = 0.75-(1.27*numpy.log10(fc16))\n",
  /- 716 -/ chars% "    f16      = 10.0**(numpy.log10(fc16)/(1.0+((numpy.log10(kr16)/nc16))**2.0))\n",
  /- 717 -/ chars% "    KMT16    = (k160*k16i)*f16/(k160+k16i)\n",
  /- 719 -/ chars% "    # kmt17 iupac 2006\n",
  /- 721 -/ chars% "    k170 = 5.00E-30*((temp/300.0)**(-1.5))*M\n",
  /- 722 -/ chars% "    k17i = 1.00E-12\n",
  /- 723 -/ chars% "    kr17 = k170/k17i\n",
  /- 724 -/ chars% "    fc17 = (0.17*numpy.exp(-51./temp))+numpy.exp(-1.0*temp/204.)\n",
  /- 725 -/ chars% "    nc17 = 0.75-(1.27*numpy.log10(fc17))\n",
  /- 726 -/ chars% "    f17  = 10.0**(numpy.log10(fc17)/(1.0+((numpy.log10(kr17)/nc17))**2.0))\n",
  /- 727 -/ chars% "    KMT17 = (k170*k17i)*f17/(k170+k17i)\n",
  /- 729 -/ chars% "    KMT18 = 9.5E-39*O2*numpy.exp(5270/temp)/(1+7.5E-29*O2*numpy.exp(5610/temp))\n",
  /- 731 -/ chars% "    # ************************************************************************\n",
  /- 732 -/ chars% "    # define photolysis reaction rates using derwent method from mcm2box.fac\n",
  /- 733 -/ chars% "    # ************************************************************************\n",
  /- 735 -/ chars% "    # solar declination angle \n",
  /- 736 -/ chars% "    dec = 23.79\n",
  /- 737 -/ chars% "    # latitude\n",
  /- 738 -/ chars% "    lat = 50.0\n",
  /- 739 -/ chars% "    pi = 4.0*numpy.arctan(1.0)\n",
  /- 740 -/ chars% "    # local hour angle - representing time of day\n"]

def pyWrites8 : List Str := [
  /- 741 -/ chars% "    lha = (1.0+ttime/4.32E+4)*pi\n",
  /- 742 -/ chars% "    radian = 180.0/pi\n",
  /- 743 -/ chars% "    lat = lat/radian\n",
  /- 744 -/ chars% "    dec = dec/radian\n",
  /- 745 -/ chars% "    theta = numpy.arccos(numpy.cos(lha)*numpy.cos(dec)*numpy.cos(lat)+numpy.sin(dec)*numpy.sin(lat))\n",
  /- 746 -/ chars% "    sinld = numpy.sin(lat)*numpy.sin(dec)\n",
  /- 747 -/ chars% "    cosld = numpy.cos(lat)*numpy.cos(dec)\n",
  /- 748 -/ chars% "    cosx = (numpy.cos(lha)*cosld)+sinld\n",
  /- 749 -/ chars% "    cosx = numpy.cos(theta)\n",
  /- 750 -/ chars% "    secx = 1.0E+0/(cosx+1.0E-30)\n",
  /- 752 -/ chars% "    # Data taken from photolysis.txt. Calculations done in the form of:\n",
  /- 753 -/ chars% "    # j(k) = l(k)*cosx**( mm(k))*numpy.exp(-nn(k)*secx)\n",
  /- 754 -/ chars% "    J=[None]*62\n",
  /- 755 -/ chars% "    #J          L           M          N\n",
  /- 756 -/ chars% "    J[1]=6.073E-05*cosx**(1.743)*numpy.exp(-1.0*0.474*secx)\n",
  /- 757 -/ chars% "    J[2]=4.775E-04*cosx**(0.298)*numpy.exp(-1.0*0.080*secx)\n",
  /- 758 -/ chars% "    J[3]=1.041E-05*cosx**(0.723)*numpy.exp(-1.0*0.279*secx)\n",
  /- 759 -/ chars% "    J[4]=1.165E-02*cosx**(0.244)*numpy.exp(-1.0*0.267*secx)\n",
  /- 760 -/ chars% "    J[5]=2.485E-02*cosx**(0.168)*numpy.exp(-1.0*0.108*secx)\n",
  /- 761 -/ chars% "    J[6]=1.747E-01*cosx**(0.155)*numpy.exp(-1.0*0.125*secx)\n",
  /- 762 -/ chars% "    J[7]=2.644E-03*cosx**(0.261)*numpy.exp(-1.0*0.288*secx)\n",
  /- 763 -/ chars% "    J[8]=9.312E-07*cosx**(1.230)*numpy.exp(-1.0*0.307*secx)\n",
  /- 764 -/ chars% "    J[11]=4.642E-05*cosx**(0.762)*numpy.exp(-1.0*0.353*secx)\n",
  /- 765 -/ chars% "    J[12]=6.853E-05*cosx**(0.477)*numpy.exp(-1.0*0.323*secx)\n",
  /- 766 -/ chars% "    J[13]=7.344E-06*cosx**(1.202)*numpy.exp(-1.0*0.417*secx)\n",
  /- 767 -/ chars% "    J[14]=2.879E-05*cosx**(1.067)*numpy.exp(-1.0*0.358*secx)\n",
  /- 768 -/ chars% "    J[15]=2.792E-05*cosx**(0.805)*numpy.exp(-1.0*0.338*secx)\n",
  /- 769 -/ chars% "    J[16]=1.675E-05*cosx**(0.805)*numpy.exp(-1.0*0.338*secx)\n",
  /- 770 -/ chars% "    J[17]=7.914E-05*cosx**(0.764)*numpy.exp(-1.0*0.364*secx)\n",
  /- 771 -/ chars% "    J[18]=1.482E-06*cosx**(0.396)*numpy.exp(-1.0*0.298*secx)\n"]

def pyWrites9 : List Str := [
  /- 772 -/ chars% "    J[19]=1.482E-05*cosx**(0.396)*numpy.exp(-1.0*0.298*secx)\n",
  /- 773 -/ chars% "    J[20]=7.600E-04*cosx**(0.396)*numpy.exp(-1.0*0.298*secx)\n",
  /- 774 -/ chars% "    J[21]=7.992E-07*cosx**(1.578)*numpy.exp(-1.0*0.271*secx)\n",
  /- 775 -/ chars% "    J[22]=5.804E-06*cosx**(1.092)*numpy.exp(-1.0*0.377*secx)\n",
  /- 776 -/ chars% "    J[23]=2.4246E-06*cosx**(0.395)*numpy.exp(-1.0*0.296*secx)\n",
  /- 777 -/ chars% "    J[24]=2.424E-06*cosx**(0.395)*numpy.exp(-1.0*0.296*secx)\n",
  /- 778 -/ chars% "    J[31]=6.845E-05*cosx**(0.130)*numpy.exp(-1.0*0.201*secx)\n",
  /- 779 -/ chars% "    J[32]=1.032E-05*cosx**(0.130)*numpy.exp(-1.0*0.201*secx)\n",
  /- 780 -/ chars% "    J[33]=3.802E-05*cosx**(0.644)*numpy.exp(-1.0*0.312*secx)\n",
  /- 781 -/ chars% "    J[34]=1.537E-04*cosx**(0.170)*numpy.exp(-1.0*0.208*secx)\n",
  /- 782 -/ chars% "    J[35]=3.326E-04*cosx**(0.148)*numpy.exp(-1.0*0.215*secx)\n",
  /- 783 -/ chars% "    J[41]=7.649E-06*cosx**(0.682)*numpy.exp(-1.0*0.279*secx)\n",
  /- 784 -/ chars% "    J[51]=1.588E-06*cosx**(1.154)*numpy.exp(-1.0*0.318*secx)\n",
  /- 785 -/ chars% "    J[52]=1.907E-06*cosx**(1.244)*numpy.exp(-1.0*0.335*secx)\n",
  /- 786 -/ chars% "    J[53]=2.485E-06*cosx**(1.196)*numpy.exp(-1.0*0.328*secx)\n",
  /- 787 -/ chars% "    J[54]=4.095E-06*cosx**(1.111)*numpy.exp(-1.0*0.316*secx)\n",
  /- 788 -/ chars% "    J[55]=1.135E-05*cosx**(0.974)*numpy.exp(-1.0*0.309*secx)\n",
  /- 789 -/ chars% "    J[56]=4.365E-05*cosx**(1.089)*numpy.exp(-1.0*0.323*secx)\n",
  /- 790 -/ chars% "    J[57]=3.363E-06*cosx**(1.296)*numpy.exp(-1.0*0.322*secx)\n",
  /- 791 -/ chars% "    J[61]=7.537E-04*cosx**(0.499)*numpy.exp(-1.0*0.266*secx)\n",
  /- 792 -/ chars% "    TEMP=temp\n"]

/-- `write_rate_file`, lines 479–792. -/
def pyWrites : List Str :=
  pyWrites1 ++ pyWrites2 ++ pyWrites3 ++ pyWrites4 ++ pyWrites5 ++ pyWrites6 ++ pyWrites7 ++ pyWrites8 ++ pyWrites9

def numbaWrites1 : List Str := [
  /- 893 -/ chars% "    # Creating reference to constant values used in rate expressions\n",
  /- 895 -/ chars% "    # constants used in calculation of reaction rates\n",
  /- 896 -/ chars% "    M  = 2.55E+19  #Check this against pressure assumed in model\n",
  /- 897 -/ chars% "    N2 = 0.79*M\n",
  /- 898 -/ chars% "    O2 = 0.2095*M\n",
  /- 900 -/ chars% "    # kro2no : ro2      + no      = ro      + no2\n",
  /- 901 -/ chars% "    #        : ro2      + no      = rono2\n",
  /- 902 -/ chars% "    # iupac 1992\n",
  /- 903 -/ chars% "    KRONO2    = 2.70E-12*numba_exp(360.0/temp)\n",
  /- 905 -/ chars% "    KRO2NO = 2.7E-12*numba_exp(360.0/temp) \n",
  /- 907 -/ chars% "    # kro2ho2: ro2      + ho2     = rooh    + o2\n",
  /- 908 -/ chars% "    # mcm protocol [1997]\n",
  /- 909 -/ chars% "    KRO2HO2   = 2.91E-13*numba_exp(1300.0/temp)\n",
  /- 911 -/ chars% "    # kapho2 : rcoo2    + ho2     = products\n",
  /- 912 -/ chars% "    # mcm protocol [1997]\n",
  /- 913 -/ chars% "    KAPHO2    = 5.2E-13*numba_exp(980.0/temp)\n",
  /- 915 -/ chars% "    # kapno  : rcoo2    + no      = products\n",
  /- 916 -/ chars% "    # mej [1998]\n",
  /- 917 -/ chars% "    KAPNO = 7.5E-12*numba_exp(290.0/temp)\n",
  /- 919 -/ chars% "    # kro2no3: ro2      + no3     = products\n",
  /- 920 -/ chars% "    # mcm protocol [1997]\n",
  /- 921 -/ chars% "    KRO2NO3   = 2.3E-12\n",
  /- 923 -/ chars% "    # kno3al : no3      + rcho    = rcoo2   + hno3\n",
  /- 924 -/ chars% "    # mcm protocol [1997]\n",
  /- 925 -/ chars% "    KNO3AL    = 1.4E-12*numba_exp(-1860.0/temp)\n",
  /- 927 -/ chars% "    # kdec   : ro                 = products\n",
  /- 928 -/ chars% "    # mcm protocol [1997]\n",
  /- 929 -/ chars% "    KDEC      = 1.00E+06\n",
  /- 931 -/ chars% "    KROSEC = 2.50E-14*numba_exp(-300.0/temp)\n",
  /- 933 -/ chars% "    KALKOXY=3.70E-14*numba_exp(-460.0/temp)*O2\n"]

def numbaWrites2 : List Str := [
  /- 935 -/ chars% "    KALKPXY=1.80E-14*numba_exp(-260.0/temp)*O2\n",
  /- 937 -/ chars% "    KROPRIM = 2.50E-14*numba_exp(-300.0/temp)\n",
  /- 939 -/ chars% "    KCH3O2 = 1.03E-13*numba_exp(365.0/temp)\n",
  /- 941 -/ chars% "    K298CH3O2 = 3.5E-13\n",
  /- 943 -/ chars% "    K14ISOM1 = 3.00E7*numba_exp(-5300.0/temp)\t",
  /- 945 -/ chars% "    # -------------------------------------------------------------------\n",
  /- 946 -/ chars% "    # complex reactions\n",
  /- 947 -/ chars% "    # -------------------------------------------------------------------\n",
  /- 949 -/ chars% "    # kfpan kbpan\n",
  /- 950 -/ chars% "    # formation and decomposition of pan\n",
  /- 951 -/ chars% "    # iupac 2001 (mcmv3.2)\n",
  /- 952 -/ chars% "    kc0     = 3.28E-28*M*(temp/300.0)**(-6.87)\n",
  /- 953 -/ chars% "    kci     = 1.125E-11*(temp/300.0)**(-1.105)\n",
  /- 954 -/ chars% "    krc     = kc0/kci\n",
  /- 955 -/ chars% "    fcc     = 0.30\n",
  /- 956 -/ chars% "    nc      = 0.75-(1.27*numba_log10(fcc))\n",
  /- 957 -/ chars% "    fc      = 10**(numba_log10(fcc)/(1.0+((numba_log10(krc))/nc)**2.0))\n",
  /- 958 -/ chars% "    KFPAN   = (kc0*kci)*fc/(kc0+kci)\n",
  /- 960 -/ chars% "    kd0     = 1.10E-05*M*numba_exp(-10100.0/temp)\n",
  /- 961 -/ chars% "    kdi     = 1.90E+17*numba_exp(-14100.0/temp)\n",
  /- 962 -/ chars% "    krd     = kd0/kdi\n",
  /- 963 -/ chars% "    fcd     = 0.30\n",
  /- 964 -/ chars% "    ncd     = 0.75-(1.27*numba_log10(fcd))\n",
  /- 965 -/ chars% "    fd      = 10.0**(numba_log10(fcd)/(1.0+((numba_log10(krd))/ncd)**2.0))\n",
  /- 966 -/ chars% "    KBPAN   = (kd0*kdi)*fd/(kd0+kdi)\n",
  /- 968 -/ chars% "    KPPN0     = 1.7E-03*M*numba_exp(-11280.0/temp)\n",
  /- 969 -/ chars% "    KPPNI     = 8.3E+16*numba_exp(-13940.0/temp)\n",
  /- 970 -/ chars% "    KRPPN     = KPPN0/KPPNI\n",
  /- 971 -/ chars% "    FCPPN     = 0.36\n",
  /- 972 -/ chars% "    NCPPN     = 0.75-(1.27*numba_log10(fcd))\n"]

def numbaWrites3 : List Str := [
  /- 973 -/ chars% "    FPPN      = 10.0**(numba_log10(fcd)/(1.0+((numba_log10(krd))/ncd)**2.0))\n",
  /- 974 -/ chars% "    KBPPN   = (KPPN0*KPPNI)*FCPPN/(KPPN0+KPPNI)\n",
  /- 976 -/ chars% "    # kmt01  : o        + no      = no2\n",
  /- 977 -/ chars% "    # iupac 2001 (mcmv3.2)\n",
  /- 978 -/ chars% "    k10     = 1.00E-31*M*(temp/300.0)**(-1.6)\n",
  /- 980 -/ chars% "    k1i     = 5.0E-11*(temp/300.0)**(0.3)\n",
  /- 981 -/ chars% "    kr1     = k10/k1i\n",
  /- 982 -/ chars% "    fc1     = 0.85\n",
  /- 983 -/ chars% "    nc1     = 0.75-(1.27*numba_log10(fc1))\n",
  /- 984 -/ chars% "    f1      = 10.0**(numba_log10(fc1)/(1.0+((numba_log10(kr1)/nc1))**2.0))\n",
  /- 985 -/ chars% "    KMT01   = (k10*k1i)*f1/(k10+k1i)\n",
  /- 987 -/ chars% "    # kmt02  : o        + no2     = no3\n",
  /- 988 -/ chars% "    # iupac 2001 (mcmv3.2)\n",
  /- 989 -/ chars% "    k20     = 1.30E-31*M*(temp/300.0)**(-1.5)\n",
  /- 990 -/ chars% "    k2i     = 2.30E-11*(temp/300.0)**(0.24)\n",
  /- 991 -/ chars% "    kr2     = k20/k2i\n",
  /- 992 -/ chars% "    fc2     = 0.6\n",
  /- 993 -/ chars% "    nc2     = 0.75-(1.27*numba_log10(fc2))\n",
  /- 994 -/ chars% "    f2      = 10.0**(numba_log10(fc2)/(1.0+((numba_log10(kr2)/nc2))**2.0))\n",
  /- 995 -/ chars% "    KMT02   = (k20*k2i)*f2/(k20+k2i)\n",
  /- 997 -/ chars% "    # kmt03  : no2      + no3     = n2o5\n",
  /- 998 -/ chars% "    # iupac 2006, mcmv3.2\n",
  /- 999 -/ chars% "    k30     = 3.60E-30*M*(temp/300.0)**(-4.1)\n",
  /- 1000 -/ chars% "    k3i     = 1.90E-12*(temp/300.0)**(0.2)\n",
  /- 1001 -/ chars% "    kr3     = k30/k3i\n",
  /- 1002 -/ chars% "    fc3     = 0.35\n",
  /- 1003 -/ chars% "    nc3     = 0.75-(1.27*numba_log10(fc3))\n",
  /- 1004 -/ chars% "    f3      = 10.0**(numba_log10(fc3)/(1.0+((numba_log10(kr3)/nc3))**2.0))\n",
  /- 1005 -/ chars% "    KMT03   = (k30*k3i)*f3/(k30+k3i)\n",
  /- 1007 -/ chars% "    # kmt04  : n2o5               = no2     + no3\n"]

def numbaWrites4 : List Str := [
  /- 1008 -/ chars% "    # iupac 2006, mcmv3.2\n",
  /- 1009 -/ chars% "    k40     = 1.30E-03*M*(temp/300.0)**(-3.5)*numba_exp(-11000.0/temp)\n",
  /- 1010 -/ chars% "    k4i     = 9.70E+14*(temp/300.0)**(0.1)*numba_exp(-11080.0/temp)\n",
  /- 1011 -/ chars% "    kr4     = k40/k4i\n",
  /- 1012 -/ chars% "    fc4     = 0.35\n",
  /- 1013 -/ chars% "    nc4     = 0.75-(1.27*numba_log10(fc4))\n",
  /- 1014 -/ chars% "    f4      = 10.0**(numba_log10(fc4)/(1+((numba_log10(kr4)/nc4))**2.0))\n",
  /- 1015 -/ chars% "    KMT04   = (k40*k4i)*f4/(k40+k4i)\n",
  /- 1017 -/ chars% "    # kmt05  : oh       + co(+o2) = ho2     + co2\n",
  /- 1018 -/ chars% "    # iupac 2006\n",
  /- 1019 -/ chars% "    KMT05  = 1.44E-13*(1.0 + (M/4.2E19))\n",
  /- 1021 -/ chars% "    # kmt06  : ho2      + ho2     = h2o2    + o2\n",
  /- 1022 -/ chars% "    # water enhancement factor\n",
  /- 1023 -/ chars% "    # iupac 1992\n",
  /- 1024 -/ chars% "    KMT06  = 1.0 + (1.40E-21*numba_exp(2200.0/temp)*H2O)\n",
  /- 1026 -/ chars% "    # kmt06  = 1.0 + (2.00E-25*numba_exp(4670.0/temp)*h2o)\n",
  /- 1027 -/ chars% "    # S+R 2005 values\n",
  /- 1029 -/ chars% "    # kmt07  : oh       + no      = hono\n",
  /- 1031 -/ chars% "    # iupac 2006, mcmv3.2\n",
  /- 1032 -/ chars% "    k70     = 7.40E-31*M*(temp/300.0)**(-2.4)\n",
  /- 1033 -/ chars% "    k7i     = 3.30E-11*(temp/300.0)**(-0.3)\n",
  /- 1034 -/ chars% "    kr7     = k70/k7i\n",
  /- 1035 -/ chars% "    fc7     = 0.81\n",
  /- 1036 -/ chars% "    nc7     = 0.75-(1.27*numba_log10(fc7))\n",
  /- 1037 -/ chars% "    f7      = 10.0**(numba_log10(fc7)/(1+((numba_log10(kr7)/nc7))**2.0))\n",
  /- 1038 -/ chars% "    KMT07   = (k70*k7i)*f7/(k70+k7i)\n",
  /- 1040 -/ chars% "    # kmt08  : oh       + no2     = hno3\n",
  /- 1042 -/ chars% "    # iupac 2006, mcmv3.2\n",
  /- 1043 -/ chars% "    k80     = 3.2E-30*M*(temp/300.0)**(-4.5)\n",
  /- 1044 -/ chars% "    k8i     = 3.0E-11\n"]

def numbaWrites5 : List Str := [
  /- 1045 -/ chars% "    kr8     = k80/k8i\n",
  /- 1046 -/ chars% "    fc8     = 0.41\n",
  /- 1047 -/ chars% "    nc8     = 0.75-(1.27*numba_log10(fc8))\n",
  /- 1048 -/ chars% "    f8      = 10.0**(numba_log10(fc8)/(1.0+((numba_log10(kr8)/nc8))**2.0))\n",
  /- 1049 -/ chars% "    KMT08   = (k80*k8i)*f8/(k80+k8i)\n",
  /- 1051 -/ chars% "    # kmt09  : ho2      + no2     = ho2no2\n",
  /- 1052 -/ chars% "    # iupac 1997, mcmv3.2\n",
  /- 1054 -/ chars% "    k90     = 1.4E-31*M*(temp/300.0)**(-3.1)\n",
  /- 1055 -/ chars% "    k9i     = 4.0E-12\n",
  /- 1056 -/ chars% "    kr9     = k90/k9i\n",
  /- 1057 -/ chars% "    fc9     = 0.4\n",
  /- 1058 -/ chars% "    nc9     = 0.75-(1.27*numba_log10(fc9))\n",
  /- 1059 -/ chars% "    f9      = 10.0**(numba_log10(fc9)/(1.0+((numba_log10(kr9)/nc9))**2.0))\n",
  /- 1060 -/ chars% "    KMT09   = (k90*k9i)*f9/(k90+k9i)\n",
  /- 1062 -/ chars% "    # kmt10  : ho2no2             = ho2     + no2\n",
  /- 1063 -/ chars% "    # iupac 1997, mcmv3.2\n",
  /- 1065 -/ chars% "    k100     = 4.10E-05*M*numba_exp(-10650.0/temp)\n",
  /- 1066 -/ chars% "    k10i     = 6.0E+15*numba_exp(-11170.0/temp)\n",
  /- 1067 -/ chars% "    kr10     = k100/k10i\n",
  /- 1068 -/ chars% "    fc10     = 0.4\n",
  /- 1069 -/ chars% "    nc10     = 0.75-(1.27*numba_log10(fc10))\n",
  /- 1070 -/ chars% "    f10      = 10.0**(numba_log10(fc10)/(1.0+((numba_log10(kr10)/nc10))**2.0))\n",
  /- 1071 -/ chars% "    KMT10    = (k100*k10i)*f10/(k100+k10i)\n",
  /- 1073 -/ chars% "    # kmt11  : oh       + hno3    = h2o     + no3\n",
  /- 1074 -/ chars% "    # iupac 2006, mcmv3.2\n",
  /- 1076 -/ chars% "    k1     = 2.40E-14*numba_exp(460.0/temp)\n",
  /- 1077 -/ chars% "    k3     = 6.50E-34*numba_exp(1335.0/temp)\n",
  /- 1078 -/ chars% "    k4     = 2.70E-17*numba_exp(2199.0/temp)\n",
  /- 1079 -/ chars% "    k2     = (k3*M)/(1.0+(k3*M/k4))\n",
  /- 1080 -/ chars% "    KMT11  = k1 + k2\n"]

def numbaWrites6 : List Str := [
  /- 1082 -/ chars% "    # kmt12 iupac 2006, mcmv3.2\n",
  /- 1084 -/ chars% "    k120 = 2.5E-31*((temp/300.0)**(-2.6))*M\n",
  /- 1085 -/ chars% "    k12i = 2.0E-12\n",
  /- 1086 -/ chars% "    kr12 = k120/k12i\n",
  /- 1087 -/ chars% "    fc12 = 0.53\n",
  /- 1088 -/ chars% "    nc12 = 0.75-(1.27*numba_log10(fc12))\n",
  /- 1089 -/ chars% "    f12  = 10.0**(numba_log10(fc12)/(1.0+((numba_log10(kr12)/nc12))**2.0))\n",
  /- 1090 -/ chars% "    KMT12    = (k120*k12i)*f12/(k120+k12i)\n",
  /- 1092 -/ chars% "    # kmt13  : ch3o2    + no2     = ch3o2no2\n",
  /- 1093 -/ chars% "    # iupac 2006\n",
  /- 1095 -/ chars% "    k130     = 2.50E-30*((temp/300.0)**(-5.5))*M\n",
  /- 1096 -/ chars% "    k13i     = 1.80E-11\n",
  /- 1097 -/ chars% "    kr13     = k130/k13i\n",
  /- 1098 -/ chars% "    fc13     = 0.36\n",
  /- 1099 -/ chars% "    nc13     = 0.75-(1.27*numba_log10(fc13))\n",
  /- 1100 -/ chars% "    f13      = 10.0**(numba_log10(fc13)/(1.0+((numba_log10(kr13)/nc13))**2.0))\n",
  /- 1101 -/ chars% "    KMT13    = (k130*k13i)*f13/(k130+k13i)\n",
  /- 1103 -/ chars% "    # kmt14  : ch3o2no2           = ch3o2   + no2\n",
  /- 1104 -/ chars% "    # iupac 2006, mcmv3.2\n",
  /- 1106 -/ chars% "    k140     = 9.00E-05*numba_exp(-9690.0/temp)*M\n",
  /- 1107 -/ chars% "    k14i     = 1.10E+16*numba_exp(-10560.0/temp)\n",
  /- 1108 -/ chars% "    kr14     = k140/k14i\n",
  /- 1109 -/ chars% "    fc14     = 0.36\n",
  /- 1110 -/ chars% "    nc14     = 0.75-(1.27*numba_log10(fc14))\n",
  /- 1111 -/ chars% "    f14      = 10.0**(numba_log10(fc14)/(1.0+((numba_log10(kr14)/nc14))**2.0))\n",
  /- 1112 -/ chars% "    KMT14    = (k140*k14i)*f14/(k140+k14i)\n",
  /- 1114 -/ chars% "    # kmt15 iupac 2006, mcmv3.2\n",
  /- 1116 -/ chars% "    k150 = 8.60E-29*((temp/300.0)**(-3.1))*M\n",
  /- 1117 -/ chars% "    k15i = 9.00E-12*((temp/300.0)**(-0.85))\n",
  /- 1118 -/ chars% "    kr15 = k150/k15i\n"]

def numbaWrites7 : List Str := [
  /- 1119 -/ chars% "    fc15 = 0.48\n",
  /- 1120 -/ chars% "    nc15 = 0.75-(1.27*numba_log10(fc15))\n",
  /- 1121 -/ chars% "    f15  = 10.0**(numba_log10(fc15)/(1.0+((numba_log10(kr15)/nc15))**2.0))\n",
  /- 1122 -/ chars% "    KMT15 = (k150*k15i)*f15/(k150+k15i)\n",
  /- 1124 -/ chars% "    # kmt16  :  oh  +  c3h6\n",
  /- 1125 -/ chars% "    # iupac 2006\n",
  /- 1127 -/ chars% "    k160     = 8.00E-27*((temp/300.0)**(-3.5))*M\n",
  /- 1128 -/ chars% "    k16i     = 3.00E-11*((temp/300.0)**(-1.0))\n",
  /- 1129 -/ chars% "    kr16     = k160/k16i\n",
  /- 1130 -/ chars% "    fc16     = 0.5\n",
  /- 1131 -/ chars% "    nc16     = 0.75-(1.27*numba_log10(fc16))\n",
  /- 1132 -/ chars% "    f16      = 10.0**(numba_log10(fc16)/(1.0+((numba_log10(kr16)/nc16))**2.0))\n",
  /- 1133 -/ chars% "    KMT16    = (k160*k16i)*f16/(k160+k16i)\n",
  /- 1135 -/ chars% "    # kmt17 iupac 2006\n",
  /- 1137 -/ chars% "    k170 = 5.00E-30*((temp/300.0)**(-1.5))*M\n",
  /- 1138 -/ chars% "    k17i = 1.00E-12\n",
  /- 1139 -/ chars% "    kr17 = k170/k17i\n",
  /- 1140 -/ chars% "    fc17 = (0.17*numba_exp(-51./temp))+numba_exp(-1.0*temp/204.0)\n",
  /- 1141 -/ chars% "    nc17 = 0.75-(1.27*numba_log10(fc17))\n",
  /- 1142 -/ chars% "    f17  = 10.0**(numba_log10(fc17)/(1.0+((numba_log10(kr17)/nc17))**2.0))\n",
  /- 1143 -/ chars% "    KMT17 = (k170*k17i)*f17/(k170+k17i)\n",
  /- 1145 -/ chars% "    KMT18 = 9.5E-39*O2*numba_exp(5270.0/temp)/(1+7.5E-29*O2*numba_exp(5610.0/temp))\n",
  /- 1168 -/ chars% "    # ************************************************************************\n",
  /- 1169 -/ chars% "    # define photolysis reaction rates using the AtChem2 model which can be found: \n",
  /- 1170 -/ chars% "    # https://github.com/AtChem/AtChem2 \n",
  /- 1171 -/ chars% "    # ************************************************************************\n",
  /- 1173 -/ chars% "    pi = 4.0*numba_arctan(1.0) \n",
  /- 1175 -/ chars% "    currentDayOfYear=150.0 \n",
  /- 1176 -/ chars% "    latitude=51.51  \n",
  /- 1177 -/ chars% "    longitude=0.13  \n"]

def numbaWrites8 : List Str := [
  /- 1178 -/ chars% "    cosx_threshold = 1.0E-30  \n",
  /- 1180 -/ chars% "    theta = 2.0 * pi * (currentDayOfYear - 1.0) / 365.0 \n",
  /- 1182 -/ chars% "    # The sun declination is the angle between the center of the Sun \n",
  /- 1183 -/ chars% "    # and Earths equatorial plane. \n",
  /- 1184 -/ chars% "    b0 =  0.006918 \n",
  /- 1185 -/ chars% "    b1 = -0.399912 \n",
  /- 1186 -/ chars% "    b2 =  0.070257 \n",
  /- 1187 -/ chars% "    b3 = -0.006758 \n",
  /- 1188 -/ chars% "    b4 =  0.000907 \n",
  /- 1189 -/ chars% "    b5 = -0.002697 \n",
  /- 1190 -/ chars% "    b6 =  0.001480 \n",
  /- 1191 -/ chars% "    dec = b0 + b1 * numba_cos(theta) + b2 * numba_sin(theta) + b3 * numba_cos(2.0 * theta) + b4 * numba_sin(2.0 * theta) + b5 * numba_cos(3.0 * theta) + b6 * numba_sin(3.0 * theta) \n",
  /- 1193 -/ chars% "    # The equation of time accounts for the discrepancy between the \n",
  /- 1194 -/ chars% "    # apparent and the mean solar time at a given location. \n",
  /- 1195 -/ chars% "    c0 = 0.000075 \n",
  /- 1196 -/ chars% "    c1 = 0.001868 \n",
  /- 1197 -/ chars% "    c2 = -0.032077 \n",
  /- 1198 -/ chars% "    c3 = -0.014615 \n",
  /- 1199 -/ chars% "    c4 = -0.040849 \n",
  /- 1200 -/ chars% "    eqtime = c0 + c1 * numba_cos(theta) + c2 * numba_sin(theta) + c3 * numba_cos(2.0 * theta) + c4 * numba_sin(2.0 * theta) \n",
  /- 1201 -/ chars% "    currentFracDay = currentDayOfYear - 1.0 + ( ttime / 86400.0 ) \n",
  /- 1202 -/ chars% "    currentFracHour =  (currentFracDay - int(currentFracDay)) * 24.0 \n",
  /- 1203 -/ chars% "    lha = pi * ((currentFracHour / 12.0) - (1.0 + longitude / 180.0)) + eqtime \n",
  /- 1205 -/ chars% "    lat = latitude * pi / 180.0 \n",
  /- 1206 -/ chars% "    sinld = numba_sin( lat ) * numba_sin( dec ) \n",
  /- 1207 -/ chars% "    cosld = numba_cos( lat ) * numba_cos( dec ) \n",
  /- 1208 -/ chars% "    # Calculate the cosine of the solar zenith angle. \n",
  /- 1209 -/ chars% "    cosx = numba_cos( lha ) * cosld + sinld \n",
  /- 1211 -/ chars% "    # Set negative cosx to zero and calculate the inverse \n",
  /- 1212 -/ chars% "    # (secx=1/cosx). The MCM photolysis parameterisation \n"]

def numbaWrites9 : List Str := [
  /- 1213 -/ chars% "    # (http://mcm.leeds.ac.uk/MCM/parameters/photolysis_param.htt) \n",
  /- 1214 -/ chars% "    # requires cosx and secx to calculate the photolysis rates. \n",
  /- 1215 -/ chars% "    if cosx <= cosx_threshold: \n",
  /- 1216 -/ chars% "        cosx = 0.0 \n",
  /- 1217 -/ chars% "        secx = 1.0E+20 \n",
  /- 1218 -/ chars% "    else: \n",
  /- 1219 -/ chars% "        secx = 1.0 / cosx \n",
  /- 1220 -/ chars% "    # Data taken from photolysis.txt. Calculations done in the form of:\n",
  /- 1221 -/ chars% "    # j(k) = l(k)*cosx**( mm(k))*numba_exp(-nn(k)*secx)\n",
  /- 1223 -/ chars% "    #J          L           M          N\n",
  /- 1224 -/ chars% "    J[1]=6.073E-05*cosx**(1.743)*numba_exp(-1.0*0.474*secx)\n",
  /- 1225 -/ chars% "    J[2]=4.775E-04*cosx**(0.298)*numba_exp(-1.0*0.080*secx)\n",
  /- 1226 -/ chars% "    J[3]=1.041E-05*cosx**(0.723)*numba_exp(-1.0*0.279*secx)\n",
  /- 1227 -/ chars% "    J[4]=1.165E-02*cosx**(0.244)*numba_exp(-1.0*0.267*secx)\n",
  /- 1228 -/ chars% "    J[5]=2.485E-02*cosx**(0.168)*numba_exp(-1.0*0.108*secx)\n",
  /- 1229 -/ chars% "    J[6]=1.747E-01*cosx**(0.155)*numba_exp(-1.0*0.125*secx)\n",
  /- 1230 -/ chars% "    J[7]=2.644E-03*cosx**(0.261)*numba_exp(-1.0*0.288*secx)\n",
  /- 1231 -/ chars% "    J[8]=9.312E-07*cosx**(1.230)*numba_exp(-1.0*0.307*secx)\n",
  /- 1232 -/ chars% "    J[11]=4.642E-05*cosx**(0.762)*numba_exp(-1.0*0.353*secx)\n",
  /- 1233 -/ chars% "    J[12]=6.853E-05*cosx**(0.477)*numba_exp(-1.0*0.323*secx)\n",
  /- 1234 -/ chars% "    J[13]=7.344E-06*cosx**(1.202)*numba_exp(-1.0*0.417*secx)\n",
  /- 1235 -/ chars% "    J[14]=2.879E-05*cosx**(1.067)*numba_exp(-1.0*0.358*secx)\n",
  /- 1236 -/ chars% "    J[15]=2.792E-05*cosx**(0.805)*numba_exp(-1.0*0.338*secx)\n",
  /- 1237 -/ chars% "    J[16]=1.675E-05*cosx**(0.805)*numba_exp(-1.0*0.338*secx)\n",
  /- 1238 -/ chars% "    J[17]=7.914E-05*cosx**(0.764)*numba_exp(-1.0*0.364*secx)\n",
  /- 1239 -/ chars% "    J[18]=1.482E-06*cosx**(0.396)*numba_exp(-1.0*0.298*secx)\n",
  /- 1240 -/ chars% "    J[19]=1.482E-05*cosx**(0.396)*numba_exp(-1.0*0.298*secx)\n",
  /- 1241 -/ chars% "    J[20]=7.600E-04*cosx**(0.396)*numba_exp(-1.0*0.298*secx)\n",
  /- 1242 -/ chars% "    J[21]=7.992E-07*cosx**(1.578)*numba_exp(-1.0*0.271*secx)\n",
  /- 1243 -/ chars% "    J[22]=5.804E-06*cosx**(1.092)*numba_exp(-1.0*0.377*secx)\n"]

def numbaWrites10 : List Str := [
  /- 1244 -/ chars% "    J[23]=2.4246E-06*cosx**(0.395)*numba_exp(-1.0*0.296*secx)\n",
  /- 1245 -/ chars% "    J[24]=2.424E-06*cosx**(0.395)*numba_exp(-1.0*0.296*secx)\n",
  /- 1246 -/ chars% "    J[31]=6.845E-05*cosx**(0.130)*numba_exp(-1.0*0.201*secx)\n",
  /- 1247 -/ chars% "    J[32]=1.032E-05*cosx**(0.130)*numba_exp(-1.0*0.201*secx)\n",
  /- 1248 -/ chars% "    J[33]=3.802E-05*cosx**(0.644)*numba_exp(-1.0*0.312*secx)\n",
  /- 1249 -/ chars% "    J[34]=1.537E-04*cosx**(0.170)*numba_exp(-1.0*0.208*secx)\n",
  /- 1250 -/ chars% "    J[35]=3.326E-04*cosx**(0.148)*numba_exp(-1.0*0.215*secx)\n",
  /- 1251 -/ chars% "    J[41]=7.649E-06*cosx**(0.682)*numba_exp(-1.0*0.279*secx)\n",
  /- 1252 -/ chars% "    J[51]=1.588E-06*cosx**(1.154)*numba_exp(-1.0*0.318*secx)\n",
  /- 1253 -/ chars% "    J[52]=1.907E-06*cosx**(1.244)*numba_exp(-1.0*0.335*secx)\n",
  /- 1254 -/ chars% "    J[53]=2.485E-06*cosx**(1.196)*numba_exp(-1.0*0.328*secx)\n",
  /- 1255 -/ chars% "    J[54]=4.095E-06*cosx**(1.111)*numba_exp(-1.0*0.316*secx)\n",
  /- 1256 -/ chars% "    J[55]=1.135E-05*cosx**(0.974)*numba_exp(-1.0*0.309*secx)\n",
  /- 1257 -/ chars% "    J[56]=4.365E-05*cosx**(1.089)*numba_exp(-1.0*0.323*secx)\n",
  /- 1258 -/ chars% "    J[57]=3.363E-06*cosx**(1.296)*numba_exp(-1.0*0.322*secx)\n",
  /- 1259 -/ chars% "    J[61]=7.537E-04*cosx**(0.499)*numba_exp(-1.0*0.266*secx)\n",
  /- 1260 -/ chars% "    TEMP=temp\n"]

/-- `write_rate_file_numba`, lines 893–1260. -/
def numbaWrites : List Str :=
  numbaWrites1 ++ numbaWrites2 ++ numbaWrites3 ++ numbaWrites4 ++ numbaWrites5 ++ numbaWrites6 ++ numbaWrites7 ++ numbaWrites8 ++ numbaWrites9 ++ numbaWrites10

def fortranWrites1 : List Str := [
  /- 1312 -/ chars% "    REAL(8), intent(in) :: RO2,H2O,TEMP \n",
  /- 1315 -/ chars% "    !f2py intent(out) :: rate_values \n",
  /- 1319 -/ chars% "    ! Creating reference to constant values used in rate expressions\n",
  /- 1327 -/ chars% "    REAL(8) KRONO2, KRO2HO2, KAPHO2, KAPNO, KRO2NO3  \n ",
  /- 1328 -/ chars% "    REAL(8) KNO3AL, KDEC, KROSEC, KALKOXY, KALKPXY  \n ",
  /- 1329 -/ chars% "    REAL(8) kc0, kci, krc, nc, fc, fcc, KFPAN  \n ",
  /- 1330 -/ chars% "    REAL(8) kd0, kdi, krd, fcd, ncd, fd, KBPAN  \n ",
  /- 1331 -/ chars% "    REAL(8) k10, k1i, kr1, fc1, nc1, f1, KMT01  \n ",
  /- 1332 -/ chars% "    REAL(8) k20, k2i, kr2, fc2, nc2, f2, KMT02  \n ",
  /- 1333 -/ chars% "    REAL(8) k30, k3i, kr3, fc3, nc3, f3, KMT03  \n ",
  /- 1334 -/ chars% "    REAL(8) k40, k4i, kr4, fc4, nc4, f4, KMT04  \n ",
  /- 1335 -/ chars% "    REAL(8) KMT05, KMT06  \n ",
  /- 1336 -/ chars% "    REAL(8) k70, k7i, kr7, fc7, nc7, f7, KMT07  \n ",
  /- 1337 -/ chars% "    REAL(8) k80, k8i, kr8, fc8, nc8, f8, KMT08  \n ",
  /- 1338 -/ chars% "    REAL(8) k90, k9i, kr9, fc9, nc9, f9, KMT09  \n ",
  /- 1339 -/ chars% "    REAL(8) k100, k10i, kr10, fc10, nc10, f10, KMT10  \n ",
  /- 1340 -/ chars% "    REAL(8) k1, k3, k4, k2, KMT11  \n ",
  /- 1341 -/ chars% "    REAL(8) k120, k12i, kr12, fc12, nc12, f12, KMT12  \n ",
  /- 1342 -/ chars% "    REAL(8) k130, k13i, kr13, fc13, nc13, f13, KMT13  \n ",
  /- 1343 -/ chars% "    REAL(8) k140, k14i, kr14, fc14, nc14, f14, KMT14  \n ",
  /- 1344 -/ chars% "    REAL(8) k150, k15i, kr15, fc15, nc15, f15, KMT15  \n ",
  /- 1345 -/ chars% "    REAL(8) k160, k16i, kr16, fc16, nc16, f16, KMT16  \n ",
  /- 1346 -/ chars% "    REAL(8) k170, k17i, kr17, fc17, nc17, f17, KMT17  \n ",
  /- 1347 -/ chars% "    REAL(8) KRO2NO, K14ISOM1  \n ",
  /- 1348 -/ chars% "    REAL(8) KROPRIM, KCH3O2, K298CH3O2, KMT18  \n ",
  /- 1349 -/ chars% "    REAL(8) KPPN0, KPPNI, KRPPN, FCPPN, NCPPN  \n ",
  /- 1350 -/ chars% "    REAL(8) FPPN, KBPPN  \n ",
  /- 1351 -/ chars% "    REAL(8) b0, b1, b2, b3, b4, b5, b6  \n ",
  /- 1352 -/ chars% "    REAL(8) currentDayOfYear  \n ",
  /- 1353 -/ chars% "    REAL(8) c0, c1, c2, c3, c4  \n "]

def fortranWrites2 : List Str := [
  /- 1354 -/ chars% "    REAL(8) currentFracDay, currentFracHour, eqtime  \n ",
  /- 1355 -/ chars% "    REAL(8) latitude, longitude  \n ",
  /- 1356 -/ chars% "    REAL(8), PARAMETER :: cosx_threshold = 1.0E-30  \n ",
  /- 1357 -/ chars% "\n",
  /- 1361 -/ chars% "    REAL(8), intent(IN)  :: ttime \n",
  /- 1362 -/ chars% "    !f2py intent(in) :: ttime \n",
  /- 1364 -/ chars% "    REAL(8) theta, secx, cosx \n",
  /- 1365 -/ chars% "    REAL(8) lat, pi, radian, dec, lha, sinld, cosld \n",
  /- 1368 -/ chars% "    REAL(8), dimension(61) :: J \n",
  /- 1371 -/ chars% "    REAL(8), PARAMETER :: M  = 2.55E+19\n",
  /- 1372 -/ chars% "    REAL(8), PARAMETER :: N2 = 2.014500E+19 \n",
  /- 1373 -/ chars% "    REAL(8), PARAMETER :: O2 = 5.342250E+18 \n",
  /- 1374 -/ chars% "\n",
  /- 1375 -/ chars% "    ! Creating numpy array to hold results of expressions taken from .eqn file \n",
  /- 1376 -/ chars% "\n",
  /- 1378 -/ chars% "    ! The following was taken from the AtChem2 model which can be found: \n",
  /- 1379 -/ chars% "    ! https://github.com/AtChem/AtChem2 \n",
  /- 1380 -/ chars% "    ! Specifically I have used the equations for defining zenith angles and \n",
  /- 1381 -/ chars% "    ! thus impacting photolysis rates \n",
  /- 1382 -/ chars% "\n",
  /- 1383 -/ chars% "    pi = 4.0*ATAN(1.0)  \n",
  /- 1384 -/ chars% "    !!USER TO CHANGE THESE VALUES \n",
  /- 1385 -/ chars% "    currentDayOfYear=150.0 \n",
  /- 1386 -/ chars% "    latitude=51.51  \n",
  /- 1387 -/ chars% "    longitude=0.13  \n",
  /- 1388 -/ chars% "\n",
  /- 1389 -/ chars% "    theta = 2.0 * pi * (currentDayOfYear - 1.0) / 365.0  \n",
  /- 1390 -/ chars% "\n",
  /- 1391 -/ chars% "    ! The sun declination is the angle between the center of the Sun  \n",
  /- 1392 -/ chars% "    ! and Earths equatorial plane.  \n"]

def fortranWrites3 : List Str := [
  /- 1393 -/ chars% "    b0 =  0.006918  \n",
  /- 1394 -/ chars% "    b1 = -0.399912 \n",
  /- 1395 -/ chars% "    b2 =  0.070257 \n",
  /- 1396 -/ chars% "    b3 = -0.006758 \n",
  /- 1397 -/ chars% "    b4 =  0.000907 \n",
  /- 1398 -/ chars% "    b5 = -0.002697 \n",
  /- 1399 -/ chars% "    b6 =  0.001480 \n",
  /- 1400 -/ chars% "    dec = b0 + b1 * cos(theta) + b2 * sin(theta) + b3 * cos(2.0 * theta) + & \n",
  /- 1401 -/ chars% "        b4 * sin(2.0 * theta) + b5 * cos(3.0 * theta) + b6 * sin(3.0 * theta) \n",
  /- 1402 -/ chars% "\n",
  /- 1403 -/ chars% "    ! The equation of time accounts for the discrepancy between the \n",
  /- 1404 -/ chars% "    ! apparent and the mean solar time at a given location. \n",
  /- 1405 -/ chars% "    c0 = 0.000075 \n",
  /- 1406 -/ chars% "    c1 = 0.001868 \n",
  /- 1407 -/ chars% "    c2 = -0.032077 \n",
  /- 1408 -/ chars% "    c3 = -0.014615 \n",
  /- 1409 -/ chars% "    c4 = -0.040849 \n",
  /- 1410 -/ chars% "    eqtime = c0 + c1 * cos(theta) + c2 * sin(theta) + c3 * cos(2.0 * theta) + & \n",
  /- 1411 -/ chars% "        c4 * sin(2.0 * theta) \n",
  /- 1412 -/ chars% "    currentFracDay = currentDayOfYear - 1.0 + ( ttime / 86400.0 ) \n",
  /- 1413 -/ chars% "    currentFracHour =  (currentFracDay - floor(currentFracDay)) * 24.0 \n",
  /- 1414 -/ chars% "    lha = pi * ((currentFracHour / 12.0) - (1.0 + longitude / 180.0)) + eqtime \n",
  /- 1415 -/ chars% "\n",
  /- 1416 -/ chars% "    lat = latitude * pi / 180.0 \n",
  /- 1417 -/ chars% "    sinld = sin( lat ) * sin( dec ) \n",
  /- 1418 -/ chars% "    cosld = cos( lat ) * cos( dec ) \n",
  /- 1419 -/ chars% "    ! Calculate the cosine of the solar zenith angle. \n",
  /- 1420 -/ chars% "    cosx = cos( lha ) * cosld + sinld \n",
  /- 1421 -/ chars% "\n",
  /- 1422 -/ chars% "    ! Set negative cosx to zero and calculate the inverse \n"]

def fortranWrites4 : List Str := [
  /- 1423 -/ chars% "    ! (secx=1/cosx). The MCM photolysis parameterisation \n",
  /- 1424 -/ chars% "    ! (http://mcm.leeds.ac.uk/MCM/parameters/photolysis_param.htt) \n",
  /- 1425 -/ chars% "    ! requires cosx and secx to calculate the photolysis rates. \n",
  /- 1426 -/ chars% "    if ( cosx <= cosx_threshold ) then \n",
  /- 1427 -/ chars% "      cosx = 0.0 \n",
  /- 1428 -/ chars% "     secx = 1.0E+20 \n",
  /- 1429 -/ chars% "    else \n",
  /- 1430 -/ chars% "      secx = 1.0 / cosx \n",
  /- 1431 -/ chars% "    end if \n",
  /- 1432 -/ chars% "\n",
  /- 1433 -/ chars% "    J(1)=6.073E-05*cosx**(1.743)*EXP(-1.0*0.474*secx)\n",
  /- 1434 -/ chars% "    J(2)=4.775E-04*cosx**(0.298)*EXP(-1.0*0.080*secx)\n",
  /- 1435 -/ chars% "    J(3)=1.041E-05*cosx**(0.723)*EXP(-1.0*0.279*secx)\n",
  /- 1436 -/ chars% "    J(4)=1.165E-02*cosx**(0.244)*EXP(-1.0*0.267*secx)\n",
  /- 1437 -/ chars% "    J(5)=2.485E-02*cosx**(0.168)*EXP(-1.0*0.108*secx)\n",
  /- 1438 -/ chars% "    J(6)=1.747E-01*cosx**(0.155)*EXP(-1.0*0.125*secx)\n",
  /- 1439 -/ chars% "    J(7)=2.644E-03*cosx**(0.261)*EXP(-1.0*0.288*secx)\n",
  /- 1440 -/ chars% "    J(8)=9.312E-07*cosx**(1.230)*EXP(-1.0*0.307*secx)\n",
  /- 1441 -/ chars% "    J(11)=4.642E-05*cosx**(0.762)*EXP(-1.0*0.353*secx)\n",
  /- 1442 -/ chars% "    J(12)=6.853E-05*cosx**(0.477)*EXP(-1.0*0.323*secx)\n",
  /- 1443 -/ chars% "    J(13)=7.344E-06*cosx**(1.202)*EXP(-1.0*0.417*secx)\n",
  /- 1444 -/ chars% "    J(14)=2.879E-05*cosx**(1.067)*EXP(-1.0*0.358*secx)\n",
  /- 1445 -/ chars% "    J(15)=2.792E-05*cosx**(0.805)*EXP(-1.0*0.338*secx)\n",
  /- 1446 -/ chars% "    J(16)=1.675E-05*cosx**(0.805)*EXP(-1.0*0.338*secx)\n",
  /- 1447 -/ chars% "    J(17)=7.914E-05*cosx**(0.764)*EXP(-1.0*0.364*secx)\n",
  /- 1448 -/ chars% "    J(18)=1.482E-06*cosx**(0.396)*EXP(-1.0*0.298*secx)\n",
  /- 1449 -/ chars% "    J(19)=1.482E-05*cosx**(0.396)*EXP(-1.0*0.298*secx)\n",
  /- 1450 -/ chars% "    J(20)=7.600E-04*cosx**(0.396)*EXP(-1.0*0.298*secx)\n",
  /- 1451 -/ chars% "    J(21)=7.992E-07*cosx**(1.578)*EXP(-1.0*0.271*secx)\n",
  /- 1452 -/ chars% "    J(22)=5.804E-06*cosx**(1.092)*EXP(-1.0*0.377*secx)\n"]

def fortranWrites5 : List Str := [
  /- 1453 -/ chars% "    J(23)=2.4246E-06*cosx**(0.395)*EXP(-1.0*0.296*secx)\n",
  /- 1454 -/ chars% "    J(24)=2.424E-06*cosx**(0.395)*EXP(-1.0*0.296*secx)\n",
  /- 1455 -/ chars% "    J(31)=6.845E-05*cosx**(0.130)*EXP(-1.0*0.201*secx)\n",
  /- 1456 -/ chars% "    J(32)=1.032E-05*cosx**(0.130)*EXP(-1.0*0.201*secx)\n",
  /- 1457 -/ chars% "    J(33)=3.802E-05*cosx**(0.644)*EXP(-1.0*0.312*secx)\n",
  /- 1458 -/ chars% "    J(34)=1.537E-04*cosx**(0.170)*EXP(-1.0*0.208*secx)\n",
  /- 1459 -/ chars% "    J(35)=3.326E-04*cosx**(0.148)*EXP(-1.0*0.215*secx)\n",
  /- 1460 -/ chars% "    J(41)=7.649E-06*cosx**(0.682)*EXP(-1.0*0.279*secx)\n",
  /- 1461 -/ chars% "    J(51)=1.588E-06*cosx**(1.154)*EXP(-1.0*0.318*secx)\n",
  /- 1462 -/ chars% "    J(52)=1.907E-06*cosx**(1.244)*EXP(-1.0*0.335*secx)\n",
  /- 1463 -/ chars% "    J(53)=2.485E-06*cosx**(1.196)*EXP(-1.0*0.328*secx)\n",
  /- 1464 -/ chars% "    J(54)=4.095E-06*cosx**(1.111)*EXP(-1.0*0.316*secx)\n",
  /- 1465 -/ chars% "    J(55)=1.135E-05*cosx**(0.974)*EXP(-1.0*0.309*secx)\n",
  /- 1466 -/ chars% "    J(56)=4.365E-05*cosx**(1.089)*EXP(-1.0*0.323*secx)\n",
  /- 1467 -/ chars% "    J(57)=3.363E-06*cosx**(1.296)*EXP(-1.0*0.322*secx)\n",
  /- 1468 -/ chars% "    J(61)=7.537E-04*cosx**(0.499)*EXP(-1.0*0.266*secx)\n",
  /- 1469 -/ chars% "\n",
  /- 1470 -/ chars% "    ! Calculating standard rate coefficients \n",
  /- 1471 -/ chars% "    ! iupac 1992 \n",
  /- 1472 -/ chars% "    KRONO2    = 2.7E-12*EXP(360/TEMP) \n",
  /- 1473 -/ chars% "\n",
  /- 1474 -/ chars% "    KRO2NO = 2.7E-12*EXP(360.0/TEMP) \n",
  /- 1475 -/ chars% "\n",
  /- 1477 -/ chars% "    ! kro2ho2: ro2      + ho2     = rooh    + o2 \n",
  /- 1478 -/ chars% "    ! mcm protocol [1997] \n",
  /- 1479 -/ chars% "    KRO2HO2   = 2.91E-13*EXP(1300/TEMP)  \n",
  /- 1481 -/ chars% "    ! kapho2 : rcoo2    + ho2     = products \n",
  /- 1482 -/ chars% "    ! mcm protocol [1997] \n",
  /- 1483 -/ chars% "    KAPHO2    = 5.2E-13*EXP(980/TEMP)\t \n",
  /- 1485 -/ chars% "    ! kapno  : rcoo2    + no      = products \n"]

def fortranWrites6 : List Str := [
  /- 1486 -/ chars% "    ! mej [1998] \n",
  /- 1487 -/ chars% "    KAPNO = 7.5E-12*EXP(290/TEMP)\t \n",
  /- 1489 -/ chars% "    ! kro2no3: ro2      + no3     = products \n",
  /- 1490 -/ chars% "    ! mcm protocol [1997] \n",
  /- 1491 -/ chars% "    KRO2NO3   = 2.3E-12\t \n",
  /- 1493 -/ chars% "    ! kno3al : no3      + rcho    = rcoo2   + hno3 \n",
  /- 1494 -/ chars% "    ! mcm protocol [1997] \n",
  /- 1495 -/ chars% "    KNO3AL    = 1.4E-12*EXP(-1860/TEMP) \n",
  /- 1497 -/ chars% "    ! kdec   : ro                 = products \n",
  /- 1498 -/ chars% "    ! mcm protocol [1997] \n",
  /- 1499 -/ chars% "    KDEC      = 1.00E06 \n",
  /- 1501 -/ chars% "    KROSEC = 2.50E-14*EXP(-300/TEMP) \n",
  /- 1503 -/ chars% "    KALKOXY= 3.70E-14*EXP(-460.0/TEMP)*O2 \n",
  /- 1505 -/ chars% "    KALKPXY= 1.80E-14*EXP(-260.0/TEMP)*O2 \n",
  /- 1508 -/ chars% "    KROPRIM = 2.50E-14*EXP(-300/TEMP) \n",
  /- 1511 -/ chars% "    KCH3O2 = 1.03E-13*EXP(365/TEMP) \n",
  /- 1514 -/ chars% "    K298CH3O2 = 3.5E-13 \n",
  /- 1517 -/ chars% "    K14ISOM1 = 3.00E7*EXP(-5300/TEMP)\t",
  /- 1519 -/ chars% "    ! ------------------------------------------------------------------- \n",
  /- 1520 -/ chars% "    ! complex reactions \n",
  /- 1521 -/ chars% "    ! ------------------------------------------------------------------- \n",
  /- 1522 -/ chars% "    ! kfpan kbpan \n",
  /- 1523 -/ chars% "    ! formation and decomposition of pan \n",
  /- 1524 -/ chars% "    ! iupac 2001 (mcmv3.2) \n",
  /- 1525 -/ chars% "    kc0     = 3.28E-28*M*(TEMP/300)**(-6.87) \n",
  /- 1526 -/ chars% "    kci     = 1.125E-11*(TEMP/300)**(-1.105) \n",
  /- 1527 -/ chars% "    krc     = kc0/kci \n",
  /- 1528 -/ chars% "    fcc     = 0.30 \n",
  /- 1529 -/ chars% "    nc      = 0.75-(1.27*LOG10(fcc)) \n",
  /- 1530 -/ chars% "    fc      = 10**(LOG10(fcc)/(1.0+((LOG10(krc))/nc)**2.0)) \n"]

def fortranWrites7 : List Str := [
  /- 1531 -/ chars% "    KFPAN   = (kc0*kci)*fc/(kc0+kci) \n",
  /- 1534 -/ chars% "    kd0     = 1.10E-05*M*EXP(-10100/TEMP) \n",
  /- 1535 -/ chars% "    kdi     = 1.90E17*EXP(-14100/TEMP) \n",
  /- 1536 -/ chars% "    krd     = kd0/kdi \n",
  /- 1537 -/ chars% "    fcd     = 0.30 \n",
  /- 1538 -/ chars% "    ncd     = 0.75-(1.27*LOG10(fcd)) \n",
  /- 1539 -/ chars% "    fd      = 10.0**(LOG10(fcd)/(1.0+((LOG10(krd))/ncd)**2.0)) \n",
  /- 1540 -/ chars% "    KBPAN   = (kd0*kdi)*fd/(kd0+kdi) \n",
  /- 1543 -/ chars% "    KPPN0     = 1.7E-03*EXP(-11280/TEMP)*M\n",
  /- 1544 -/ chars% "    KPPNI     = 8.3E+16*EXP(-13940/TEMP)\n",
  /- 1545 -/ chars% "    KRPPN     = KPPN0/KPPNI\n",
  /- 1546 -/ chars% "    FCPPN     = 0.36\n",
  /- 1547 -/ chars% "    NCPPN     = 0.75-1.27*(LOG10(FCPPN))\n",
  /- 1548 -/ chars% "    FPPN      = 10**(LOG10(FCPPN)/(1.0+((LOG10(KRPPN))/NCPPN)**2.0))\n",
  /- 1549 -/ chars% "    KBPPN   = (KPPN0*KPPNI)*FCPPN/(KPPN0+KPPNI)\n",
  /- 1551 -/ chars% "    ! kmt01  : o        + no      = no2 \n",
  /- 1552 -/ chars% "    ! iupac 2001 (mcmv3.2) \n",
  /- 1553 -/ chars% "    k10     = 1.0E-31*M*(TEMP/300)**(-1.6) \n",
  /- 1555 -/ chars% "    k1i     = 5.0E-11*(TEMP/300)**(0.3) \n",
  /- 1556 -/ chars% "    kr1     = k10/k1i \n",
  /- 1557 -/ chars% "    fc1     = 0.85 \n",
  /- 1558 -/ chars% "    nc1     = 0.75-(1.27*LOG10(fc1)) \n",
  /- 1559 -/ chars% "    f1      = 10.0**(LOG10(fc1)/(1.0+((LOG10(kr1)/nc1))**2.0)) \n",
  /- 1560 -/ chars% "    KMT01   = (k10*k1i)*f1/(k10+k1i) \n",
  /- 1563 -/ chars% "    ! kmt02  : o        + no2     = no3 \n",
  /- 1564 -/ chars% "    ! iupac 2001 (mcmv3.2) \n",
  /- 1565 -/ chars% "    k20     = 1.30E-31*M*(TEMP/300.0)**(-1.5) \n",
  /- 1566 -/ chars% "    k2i     = 2.30E-11*(TEMP/300.0)**(0.24) \n",
  /- 1567 -/ chars% "    kr2     = k20/k2i \n",
  /- 1568 -/ chars% "    fc2     = 0.6 \n"]

def fortranWrites8 : List Str := [
  /- 1569 -/ chars% "    nc2     = 0.75-(1.27*LOG10(fc2)) \n",
  /- 1570 -/ chars% "    f2      = 10.0**(LOG10(fc2)/(1.0+((LOG10(kr2)/nc2))**2.0)) \n",
  /- 1571 -/ chars% "    KMT02   = (k20*k2i)*f2/(k20+k2i) \n",
  /- 1575 -/ chars% "    ! kmt03  : no2      + no3     = n2o5 \n",
  /- 1576 -/ chars% "    ! iupac 2006, mcmv3.2 \n",
  /- 1577 -/ chars% "    k30     = 3.60E-30*M*(TEMP/300.0)**(-4.1)  \n",
  /- 1578 -/ chars% "    k3i     = 1.90E-12*(TEMP/300.0)**(0.2) \n",
  /- 1579 -/ chars% "    kr3     = k30/k3i \n",
  /- 1580 -/ chars% "    fc3     = 0.35 \n",
  /- 1581 -/ chars% "    nc3     = 0.75-(1.27*LOG10(fc3)) \n",
  /- 1582 -/ chars% "    f3      = 10.0**(LOG10(fc3)/(1.0+((LOG10(kr3)/nc3))**2.0)) \n",
  /- 1583 -/ chars% "    KMT03   = (k30*k3i)*f3/(k30+k3i) \n",
  /- 1586 -/ chars% "    ! kmt04  : n2o5               = no2     + no3 \n",
  /- 1587 -/ chars% "    ! iupac 2006, mcmv3.2 \n",
  /- 1588 -/ chars% "    k40     = 1.30E-03*M*(TEMP/300.0)**(-3.5)*EXP(-11000.0/TEMP) \n",
  /- 1589 -/ chars% "    k4i     = 9.70E14*(TEMP/300.0)**(0.1)*EXP(-11080.0/TEMP) \n",
  /- 1590 -/ chars% "    kr4     = k40/k4i \n",
  /- 1591 -/ chars% "    fc4     = 0.35 \n",
  /- 1592 -/ chars% "    nc4     = 0.75-(1.27*LOG10(fc4)) \n",
  /- 1593 -/ chars% "    f4      = 10.0**(LOG10(fc4)/(1+((LOG10(kr4)/nc4))**2.0)) \n",
  /- 1594 -/ chars% "    KMT04   = (k40*k4i)*f4/(k40+k4i) \n",
  /- 1597 -/ chars% "    ! kmt05  : oh       + co(+o2) = ho2     + co2 \n",
  /- 1598 -/ chars% "    ! iupac 2006 \n",
  /- 1599 -/ chars% "    KMT05  = 1.44E-13*(1+(M/4.2D+19)) \n",
  /- 1602 -/ chars% "    ! kmt06  : ho2      + ho2     = h2o2    + o2 \n",
  /- 1603 -/ chars% "    ! water enhancement factor \n",
  /- 1604 -/ chars% "    ! iupac 1992 \n",
  /- 1605 -/ chars% "    KMT06  = 1.0 + (1.40E-21*EXP(2200.0/TEMP)*H2O) \n",
  /- 1608 -/ chars% "    ! kmt06  = 1.0 + (2.00E-25*numpy.exp(4670.0/temp)*h2o) \n",
  /- 1609 -/ chars% "    ! S+R 2005 values \n"]

def fortranWrites9 : List Str := [
  /- 1611 -/ chars% "    ! kmt07  : oh       + no      = hono \n",
  /- 1613 -/ chars% "    ! iupac 2006, mcmv3.2 \n",
  /- 1614 -/ chars% "    k70     = 7.40E-31*M*(TEMP/300.0)**(-2.4) \n",
  /- 1615 -/ chars% "    k7i     = 3.30E-11*(TEMP/300.0)**(-0.3) \n",
  /- 1616 -/ chars% "    kr7     = k70/k7i \n",
  /- 1617 -/ chars% "    fc7     = 0.81 \n",
  /- 1618 -/ chars% "    nc7     = 0.75-(1.27*LOG10(fc7)) \n",
  /- 1619 -/ chars% "    f7      = 10.0**(LOG10(fc7)/(1+((LOG10(kr7)/nc7))**2.0)) \n",
  /- 1620 -/ chars% "    KMT07   = (k70*k7i)*f7/(k70+k7i) \n",
  /- 1623 -/ chars% "    ! kmt08  : oh       + no2     = hno3 \n",
  /- 1625 -/ chars% "    ! iupac 2006, mcmv3.2 \n",
  /- 1626 -/ chars% "    k80     = 3.2E-30*M*(TEMP/300)**(-4.5) \n",
  /- 1627 -/ chars% "    k8i     = 3.0E-11 \n",
  /- 1628 -/ chars% "    kr8     = k80/k8i \n",
  /- 1629 -/ chars% "    fc8     = 0.41 \n",
  /- 1630 -/ chars% "    nc8     = 0.75-(1.27*LOG10(fc8)) \n",
  /- 1631 -/ chars% "    f8      = 10.0**(LOG10(fc8)/(1.0+((LOG10(kr8)/nc8))**2.0)) \n",
  /- 1632 -/ chars% "    KMT08   = (k80*k8i)*f8/(k80+k8i) \n",
  /- 1635 -/ chars% "    ! kmt09  : ho2      + no2     = ho2no2 \n",
  /- 1636 -/ chars% "    ! iupac 1997, mcmv3.2 \n",
  /- 1638 -/ chars% "    k90     = 1.4E-31*M*(TEMP/300)**(-3.1) \n",
  /- 1639 -/ chars% "    k9i     = 4.0E-12 \n",
  /- 1640 -/ chars% "    kr9     = k90/k9i \n",
  /- 1641 -/ chars% "    fc9     = 0.4 \n",
  /- 1642 -/ chars% "    nc9     = 0.75-(1.27*LOG10(fc9)) \n",
  /- 1643 -/ chars% "    f9      = 10.0**(LOG10(fc9)/(1.0+((LOG10(kr9)/nc9))**2.0)) \n",
  /- 1644 -/ chars% "    KMT09   = (k90*k9i)*f9/(k90+k9i) \n",
  /- 1647 -/ chars% "    ! kmt10  : ho2no2             = ho2     + no2 \n",
  /- 1648 -/ chars% "    ! iupac 1997, mcmv3.2 \n",
  /- 1650 -/ chars% "    k100     = 4.10E-05*M*EXP(-10650.0/TEMP) \n"]

def fortranWrites10 : List Str := [
  /- 1651 -/ chars% "    k10i     = 6.0E+15*EXP(-11170/TEMP) \n",
  /- 1652 -/ chars% "    kr10     = k100/k10i \n",
  /- 1653 -/ chars% "    fc10     = 0.4 \n",
  /- 1654 -/ chars% "    nc10     = 0.75-(1.27*LOG10(fc10)) \n",
  /- 1655 -/ chars% "    f10      = 10.0**(LOG10(fc10)/(1.0+((LOG10(kr10)/nc10))**2.0)) \n",
  /- 1656 -/ chars% "    KMT10    = (k100*k10i)*f10/(k100+k10i) \n",
  /- 1659 -/ chars% "    ! kmt11  : oh       + hno3    = h2o     + no3 \n",
  /- 1660 -/ chars% "    ! iupac 2006, mcmv3.2 \n",
  /- 1662 -/ chars% "    k1     = 2.40E-14*EXP(460.0/TEMP) \n",
  /- 1663 -/ chars% "    k3     = 6.50E-34*EXP(1335.0/TEMP) \n",
  /- 1664 -/ chars% "    k4     = 2.70E-17*EXP(2199.0/TEMP) \n",
  /- 1665 -/ chars% "    k2     = (k3*M)/(1.0+(k3*M/k4)) \n",
  /- 1666 -/ chars% "    KMT11  = k1 + k2 \n",
  /- 1669 -/ chars% "    ! kmt12 iupac 2006, mcmv3.2 \n",
  /- 1671 -/ chars% "    k120 = 2.5E-31*M*(TEMP/300)**(-2.6) \n",
  /- 1672 -/ chars% "    k12i = 2.0E-12 \n",
  /- 1673 -/ chars% "    kr12 = k120/k12i \n",
  /- 1674 -/ chars% "    fc12 = 0.53 \n",
  /- 1675 -/ chars% "    nc12 = 0.75-(1.27*LOG10(fc12)) \n",
  /- 1676 -/ chars% "    f12  = 10.0**(LOG10(fc12)/(1.0+((LOG10(kr12)/nc12))**2.0)) \n",
  /- 1677 -/ chars% "    KMT12    = (k120*k12i)*f12/(k120+k12i) \n",
  /- 1680 -/ chars% "    ! kmt13  : ch3o2    + no2     = ch3o2no2 \n",
  /- 1681 -/ chars% "    ! iupac 2006 \n",
  /- 1683 -/ chars% "    k130     = 2.50E-30*((TEMP/300.0)**(-5.5))*M \n",
  /- 1684 -/ chars% "    k13i     = 1.80E-11 \n",
  /- 1685 -/ chars% "    kr13     = k130/k13i \n",
  /- 1686 -/ chars% "    fc13     = 0.36 \n",
  /- 1687 -/ chars% "    nc13     = 0.75-(1.27*LOG10(fc13)) \n",
  /- 1688 -/ chars% "    f13      = 10.0**(LOG10(fc13)/(1.0+((LOG10(kr13)/nc13))**2.0)) \n",
  /- 1689 -/ chars% "    KMT13    = (k130*k13i)*f13/(k130+k13i) \n"]

def fortranWrites11 : List Str := [
  /- 1692 -/ chars% "    ! kmt14  : ch3o2no2           = ch3o2   + no2 \n",
  /- 1693 -/ chars% "    ! iupac 2006, mcmv3.2     \n",
  /- 1695 -/ chars% "    k140     = 9.00E-05*EXP(-9690.0/TEMP)*M \n",
  /- 1696 -/ chars% "    k14i     = 1.10E16*EXP(-10560.0/TEMP) \n",
  /- 1697 -/ chars% "    kr14     = k140/k14i \n",
  /- 1698 -/ chars% "    fc14     = 0.36 \n",
  /- 1699 -/ chars% "    nc14     = 0.75-(1.27*LOG10(fc14)) \n",
  /- 1700 -/ chars% "    f14      = 10.0**(LOG10(fc14)/(1.0+((LOG10(kr14)/nc14))**2.0)) \n",
  /- 1701 -/ chars% "    KMT14    = (k140*k14i)*f14/(k140+k14i) \n",
  /- 1704 -/ chars% "    ! kmt15 iupac 2006, mcmv3.2 \n",
  /- 1706 -/ chars% "    k150 = 8.60E-29*((TEMP/300.0)**(-3.1))*M \n",
  /- 1707 -/ chars% "    k15i = 9.00E-12*((TEMP/300.0)**(-0.85)) \n",
  /- 1708 -/ chars% "    kr15 = k150/k15i \n",
  /- 1709 -/ chars% "    fc15 = 0.48 \n",
  /- 1710 -/ chars% "    nc15 = 0.75-(1.27*LOG10(fc15)) \n",
  /- 1711 -/ chars% "    f15  = 10.0**(LOG10(fc15)/(1.0+((LOG10(kr15)/nc15))**2.0)) \n",
  /- 1712 -/ chars% "    KMT15 = (k150*k15i)*f15/(k150+k15i) \n",
  /- 1715 -/ chars% "    ! kmt16  :  oh  +  c3h6 \n",
  /- 1716 -/ chars% "    ! iupac 2006 \n",
  /- 1718 -/ chars% "    k160     = 8.00E-27*((TEMP/300.0)**(-3.5))*M \n",
  /- 1719 -/ chars% "    k16i     = 3.00E-11*((TEMP/300.0)**(-1.0)) \n",
  /- 1720 -/ chars% "    kr16     = k160/k16i \n",
  /- 1721 -/ chars% "    fc16     = 0.5 \n",
  /- 1722 -/ chars% "    nc16     = 0.75-(1.27*LOG10(fc16)) \n",
  /- 1723 -/ chars% "    f16      = 10.0**(LOG10(fc16)/(1.0+((LOG10(kr16)/nc16))**2.0)) \n",
  /- 1724 -/ chars% "    KMT16    = (k160*k16i)*f16/(k160+k16i) \n",
  /- 1727 -/ chars% "    ! kmt17 iupac 2006 \n",
  /- 1729 -/ chars% "    k170 = 5.00E-30*((TEMP/300.0)**(-1.5))*M \n",
  /- 1730 -/ chars% "    k17i = 1.00E-12 \n",
  /- 1731 -/ chars% "    kr17 = k170/k17i \n"]

def fortranWrites12 : List Str := [
  /- 1732 -/ chars% "    fc17 = (0.17*EXP(-51.0/TEMP))+EXP(-1.0*TEMP/204.0) \n",
  /- 1733 -/ chars% "    nc17 = 0.75-(1.27*LOG10(fc17)) \n",
  /- 1734 -/ chars% "    f17  = 10.0**(LOG10(fc17)/(1.0+((LOG10(kr17)/nc17))**2.0)) \n",
  /- 1735 -/ chars% "    KMT17 = (k170*k17i)*f17/(k170+k17i) \n",
  /- 1738 -/ chars% "    KMT18 = 9.5E-39*O2*EXP(5270.0/TEMP)/(1+7.5E-29*O2*EXP(5610.0/TEMP)) \n",
  /- 1743 -/ chars% "    ! Explicitly calculating rates for each reaction \n"]

/-- `write_rate_file_fortran`, lines 1315–1743. -/
def fortranWrites : List Str :=
  fortranWrites1 ++ fortranWrites2 ++ fortranWrites3 ++ fortranWrites4 ++ fortranWrites5 ++ fortranWrites6 ++ fortranWrites7 ++ fortranWrites8 ++ fortranWrites9 ++ fortranWrites10 ++ fortranWrites11 ++ fortranWrites12

end Rl
end PyBox
