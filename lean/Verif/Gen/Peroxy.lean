import Verif.Py.Chars

/-!
# The peroxy radical names

Written by `/verif/tools/ro2.py` from `/repo/Parse_eqn_file.py` lines 1787–2120.
`ro2Names` is the value of the list in the source: nine of its entries are not names of species
(a missing quote joins two names, eight entries end in a bracket). `Spec.peroxyRadicals` is the
published list the source transcribes: the same names without that damage.
-/

namespace PyBox

def ro2Names1 : List Str := [
  chars% "HOCH2CH2O2", chars% "HO1C3O2", chars% "HYPROPO2", chars% "IPROPOLO2", chars% "NBUTOLAO2", chars% "NBUTOLBO2", chars% "BUT2OLO2", chars% "IBUTOLBO2", chars% "IBUTOLCO2",
  chars% "TBUTOLO2", chars% "HO3C5O2", chars% "PE2ENEBO2", chars% "HM2C43O2", chars% "M2BUOL2O2", chars% "HM33C3O2", chars% "ME3BUOLO2", chars% "HO2M2C4O2", chars% "ME2BU2OLO2",
  chars% "PROL11MO2", chars% "H2M3C4O2", chars% "ME2BUOLO2", chars% "CYHEXOLAO2", chars% "MIBKAOHAO2", chars% "MIBKAOHBO2", chars% "MIBKHO4O2", chars% "CH3CO3", chars% "NMBOAO2",
  chars% "NMBOBO2", chars% "MBOAO2", chars% "MBOBO2"]

def ro2Names2 : List Str := [
  chars% "CH3O2", chars% "HCOCH2O2", chars% "C2H5CO3", chars% "C2H5O2", chars% "C3H7CO3", chars% "BUTALO2", chars% "NC3H7O2", chars% "IPRCO3", chars% "IBUTALBO2,IBUTALCO2", chars% "IC3H7O2",
  chars% "C4H9CO3", chars% "C4CHOBO2", chars% "NC4H9O2", chars% "ACO3", chars% "ACRO2", chars% "OCCOHCO2", chars% "CH3C2H2O2", chars% "MACO3", chars% "MACRO2", chars% "MACROHO2", chars% "C3DBCO3", chars% "C4CONO3O2", chars% "C4NO3COO2", chars% "C4OCCOHCO2", chars% "COCCOH2CO2",
  chars% "SC4H9O2", chars% "IC4H9O2", chars% "TC4H9O2", chars% "PEAO2", chars% "PEBO2"]

def ro2Names3 : List Str := [
  chars% "PECO2", chars% "IPEAO2", chars% "IPEBO2", chars% "IPECO2", chars% "NEOPO2", chars% "HEXAO2", chars% "HEXBO2", chars% "HEXCO2", chars% "M2PEAO2", chars% "M2PEBO2", chars% "M2PECO2", chars% "M2PEDO2", chars% "M3PEAO2", chars% "M3PEBO2", chars% "M3PECO2", chars% "M22C43O2", chars% "M22C4O2", chars% "M33C4O2", chars% "M23C43O2", chars% "M23C4O2", chars% "HEPTO2", chars% "M2HEXAO2", chars% "M2HEXBO2", chars% "M3HEXAO2", chars% "M3HEXBO2", chars% "OCTO2", chars% "NONO2", chars% "DECO2", chars% "UDECO2", chars% "DDECO2"]

def ro2Names4 : List Str := [
  chars% "CHEXO2", chars% "ETHENO3O2", chars% "PRONO3AO2", chars% "PRONO3BO2", chars% "BU1ENO3O2", chars% "C43NO34O2", chars% "HO3C4O2", chars% "C42NO33O2", chars% "MPRANO3O2",
  chars% "MPRBNO3O2", chars% "C51NO32O2", chars% "C52NO31O2", chars% "PE1ENEAO2", chars% "PE1ENEBO2", chars% "C52NO33O2", chars% "C53NO32O2", chars% "PE2ENEAO2", chars% "C4NO32M1O2",
  chars% "C4NO32M2O2", chars% "C4M3NO31O2", chars% "C4M3NO32O2", chars% "IPRCHOOA", chars% "ME3BU2OLO2", chars% "C4M2NO32O2", chars% "C4M2NO33O2", chars% "C65NO36O2", chars% "C66NO35O2", chars% "C6OH5O2", chars% "HO5C6O2", chars% "C62NO33O2)"]

def ro2Names5 : List Str := [
  chars% "C63NO32O2", chars% "C64OH5O2", chars% "C65OH4O2", chars% "C4ME2NO3O2", chars% "C4ME2OHO2", chars% "BZBIPERO2", chars% "C6H5CH2O2", chars% "TLBIPERO2", chars% "OXYLO2",
  chars% "OXYBIPERO2", chars% "MXYLO2", chars% "MXYBIPERO2", chars% "PXYLO2", chars% "PXYBIPERO2", chars% "C6H5C2H4O2", chars% "EBZBIPERO2", chars% "PHC3O2", chars% "PBZBIPERO2",
  chars% "PHIC3O2", chars% "IPBZBIPRO2)", chars% "TM123BO2", chars% "TM123BPRO2", chars% "TM124BO2", chars% "TM124BPRO2", chars% "TMBO2", chars% "TM135BPRO2", chars% "ETOLO2", chars% "OETLBIPRO2", chars% "METLBIPRO2", chars% "PETLBIPRO2"]

def ro2Names6 : List Str := [
  chars% "DM35EBO2", chars% "DMEBIPRO2", chars% "DE35TO2", chars% "DETLBIPRO2", chars% "NSTYRENO2", chars% "STYRENO2", chars% "C6H5CO3", chars% "C6H5O2", chars% "CH2CLO2", chars% "CHCL2O2", chars% "CCL3O2", chars% "CCL3CH2O2", chars% "TCEOHO2", chars% "C2CL3OHAO2)", chars% "C2CL3OHBO2", chars% "C2CL2OHO2", chars% "DICLETO2", chars% "CH2OHCL2O2", chars% "CL2OHCH2O2",
  chars% "CL12PRAO2", chars% "CL12PRBO2", chars% "CL12PRCO2", chars% "CH3CCL2O2", chars% "CHCL2CH2O2", chars% "CH2CLCH2O2", chars% "CH3CHCLO2", chars% "CHCL2CL2O2", chars% "CH2CL3O2",
  chars% "CHCL3O2", chars% "CCLNO3O2)"]

def ro2Names7 : List Str := [
  chars% "CNO3CLO2", chars% "CCLOHCH2O2", chars% "CH2OHCCLO2", chars% "NBUTDAO2", chars% "NBUTDBO2", chars% "BUTDAO2", chars% "BUTDBO2", chars% "BUTDCO2", chars% "NISOPO2", chars% "ISOP34O2", chars% "CHOOCH2O2", chars% "METHACETO2", chars% "MOCOCH2O2", chars% "ACETC2H4O2",
  chars% "EOCOCH2O2", chars% "ETHACETO2", chars% "NPROACEAO2", chars% "NPROACEBO2", chars% "NPROACECO2", chars% "IPRACBO2", chars% "IPROACETO2", chars% "NBUACETAO2", chars% "NBUACETBO2", chars% "NBUACETCO2", chars% "SBUACETAO2", chars% "SBUACETBO2", chars% "MCOOTBO2", chars% "TBOCOCH2O2", chars% "CH3OCH2O2", chars% "DIETETO2"]

def ro2Names8 : List Str := [
  chars% "ETOC2O2", chars% "MTBEAO2", chars% "MTBEBO2", chars% "DIIPRETO2", chars% "IPROMC2O2",
  chars% "ETBEAO2", chars% "ETBEBO2)", chars% "ETBECO2", chars% "MO2EOLAO2", chars% "MO2EOLBO2",
  chars% "EOX2EOLAO2", chars% "EOX2EOLBO2", chars% "PR2OHMOXO2", chars% "H2C3OCO2", chars% "BOX2EOHAO2", chars% "BOX2EOHBO2", chars% "BOXPROLAO2", chars% "BOXPROLBO2", chars% "CH2BRO2",
  chars% "DIBRETO2", chars% "CH3COCH2O2", chars% "MEKAO2", chars% "MEKBO2", chars% "MEKCO2",
  chars% "CO2C54O2", chars% "MPRKAO2", chars% "DIEKAO2", chars% "DIEKBO2", chars% "MIPKAO2",
  chars% "MIPKBO2"]

def ro2Names9 : List Str := [
  chars% "HEX2ONAO2", chars% "HEX2ONBO2", chars% "HEX2ONCO2", chars% "HEX3ONAO2", chars% "HEX3ONBO2", chars% "HEX3ONCO2", chars% "HEX3ONDO2", chars% "MIBKAO2", chars% "MIBKBO2",
  chars% "MTBKO2", chars% "CYHXONAO2", chars% "NAPINAO2", chars% "NAPINBO2", chars% "APINAO2",
  chars% "APINBO2", chars% "APINCO2", chars% "NBPINAO2", chars% "NBPINBO2", chars% "BPINAO2",
  chars% "BPINBO2", chars% "BPINCO2", chars% "NLIMO2", chars% "LIMAO2", chars% "LIMBO2", chars% "LIMCO2", chars% "NBCO2", chars% "BCAO2", chars% "BCBO2", chars% "BCCO2", chars% "DMMAO2"]

def ro2Names10 : List Str := [
  chars% "DMMBO2", chars% "DMCO2", chars% "CH3SCH2O2", chars% "HODMSO2", chars% "ETHOXO2",
  chars% "BUT2CO3", chars% "C3ME3CO3", chars% "C3ME3CHOO2", chars% "HOCH2CO3)", chars% "CH3CHOHCO3", chars% "IPRHOCO3", chars% "IPRCHOO", chars% "BZEMUCCO3", chars% "BZEMUCO2",
  chars% "C5DIALO2", chars% "NPHENO2", chars% "PHENO2", chars% "CRESO2", chars% "NCRESO2",
  chars% "TLEMUCCO3", chars% "TLEMUCO2", chars% "C615CO2O2", chars% "OXYMUCCO3", chars% "OXYMUCO2", chars% "MC6CO2O2", chars% "NOXYOLO2", chars% "OXYOLO2", chars% "MXYMUCCO3", chars% "MXYMUCO2", chars% "C726CO5O2"]

def ro2Names11 : List Str := [
  chars% "MXYOLO2)", chars% "NMXYOLO2", chars% "PXYMUCCO3", chars% "PXYMUCO2", chars% "C6M5CO2O2", chars% "NPXYOLO2", chars% "PXYOLO2", chars% "EBENZOLO2", chars% "NEBNZOLO2",
  chars% "EBZMUCCO3", chars% "EBZMUCO2", chars% "C715CO2O2", chars% "NPBNZOLO2", chars% "PBENZOLO2", chars% "PBZMUCCO3", chars% "PBZMUCO2", chars% "C815CO2O2", chars% "IPBENZOLO2",
  chars% "NIPBNZOLO2", chars% "IPBZMUCCO3", chars% "IPGLOOB", chars% "IPBZMUCO2", chars% "C7M15CO2O2", chars% "NTM123OLO2", chars% "TM123OLO2", chars% "TM123MUCO2", chars% "NTM124OLO2", chars% "TM124OLO2", chars% "TM124MUCO3", chars% "TM124MUCO2"]

def ro2Names12 : List Str := [
  chars% "C7CO2M5O2", chars% "NTM135OLO2", chars% "TM135OLO2", chars% "TM135MUCO3", chars% "TM135MUCO2", chars% "C7M2CO5O2", chars% "OETLMUCCO3", chars% "OETLMUCO2", chars% "MC7CO2O2",
  chars% "NOETOLO2", chars% "OETOLO2", chars% "METLMUCCO3)", chars% "METLMUCO2", chars% "C826CO3O2", chars% "METOLO2", chars% "NMETOLO2", chars% "PETLMUCCO3", chars% "PETLMUCO2",
  chars% "C7M6CO2O2", chars% "NPETOLO2", chars% "PETOLO2", chars% "DMEBMUCO3", chars% "DMEBMUCO2", chars% "C8M2CO6O2", chars% "NDMEPHOLO2", chars% "DMEPHOLO2", chars% "NDEMPHOLO2",
  chars% "DEMPHOLO2", chars% "DETLMUCO3", chars% "DETLMUCO2"]

def ro2Names13 : List Str := [
  chars% "C9M2CO6O2", chars% "HMVKAO2", chars% "HMVKBO2", chars% "MVKO2", chars% "CISOPAO2",
  chars% "ISOPBO2", chars% "CISOPCO2", chars% "ISOPDO2", chars% "NC526O2", chars% "C530O2",
  chars% "M3BU3ECO3", chars% "C45O2", chars% "NC51O2", chars% "C51O2", chars% "CH2CHCH2O2",
  chars% "ISOPAO2", chars% "ISOPCO2", chars% "MEMOXYCO3", chars% "EOX2MECO3", chars% "ETOMEO2",
  chars% "PRONEMOXO2", chars% "BOXMCO3", chars% "BOX2MO2", chars% "BOXPRONAO2", chars% "BOXPRONBO2", chars% "C107O2", chars% "C109O2", chars% "C96O2", chars% "NOPINAO2", chars% "NOPINBO2"]

def ro2Names14 : List Str := [
  chars% "NOPINCO2", chars% "NOPINDO2", chars% "LIMALAO2", chars% "LIMALBO2", chars% "C923O2",
  chars% "BCALAO2", chars% "BCALBO2", chars% "C136O2", chars% "BCALCO2", chars% "C141O2", chars% "HOC2H4CO3", chars% "HOIPRCO3", chars% "HO13C5O2", chars% "HO3C4CO3", chars% "C54O2", chars% "H2M2C3CO3", chars% "PROL1MCO3", chars% "C56O2", chars% "HO2C43CO3", chars% "MIBKCOOHO2",
  chars% "NC4OHCO3", chars% "C4OH2CO3", chars% "CO2C3CO3", chars% "HO2C3CO3", chars% "IBUDIALCO3", chars% "PROPALO2", chars% "CO3C4CO3", chars% "HO1C4O2", chars% "A2PANOO", chars% "HCOCOHCO3"]

def ro2Names15 : List Str := [
  chars% "HCOCO3", chars% "MACRNCO3", chars% "MACRNBCO3", chars% "CHOMOHCO3", chars% "CO2H3CO3",
  chars% "HO1C5O2", chars% "HO2C5O2", chars% "C52O2", chars% "TBUTCO3", chars% "HO1C6O2", chars% "C5H11CO3", chars% "HO2C6O2", chars% "HO3C6O2", chars% "HO1MC5O2", chars% "C54CO3", chars% "HO2MC5O2", chars% "EIPKAO2", chars% "EIPKBO2", chars% "HO2M2C5O2", chars% "H1MC5O2", chars% "M3C4CO3", chars% "H2MC5O2", chars% "M2BKAO2", chars% "M2BKBO2", chars% "HM33C4O2", chars% "M22C3CO3", chars% "HM22C4O2", chars% "M33C3CO3", chars% "HM23C4O2", chars% "M2C43CO3"]

def ro2Names16 : List Str := [
  chars% "HO3C76O2", chars% "CO3C75O2", chars% "H2M5C65O2", chars% "C75O2", chars% "H2M2C65O2",
  chars% "H2M4C65O2", chars% "C710O2", chars% "H3M3C6O2", chars% "HO3C86O2", chars% "CO3C85O2",
  chars% "HO3C96O2", chars% "C91O2", chars% "HO3C106O2", chars% "C101O2", chars% "HO3C116O2",
  chars% "C111O2", chars% "HO3C126O2", chars% "C121O2", chars% "CO1C6O2", chars% "NO3CH2CO3",
  chars% "PRNO3CO3", chars% "CO3C4NO3O2", chars% "HO3C3CO3", chars% "MPRBNO3CO3", chars% "C5NO3COAO2", chars% "C4NO3CO3", chars% "C5OH2CO4O2", chars% "C4OHCO3", chars% "C5NO3CO4O2",
  chars% "C5CONO34O2"]

def ro2Names17 : List Str := [
  chars% "C43NO3CO3", chars% "C4MCONO3O2", chars% "C3MNO3CO3", chars% "C3M3OH2CO3", chars% "MC4CONO3O2", chars% "C65NO36CO3", chars% "MNO3COC4O2", chars% "C4COMOH3O2", chars% "HO5C5CO3", chars% "C6NO3CO5O2", chars% "C6CONO34O2", chars% "MALDIALCO3", chars% "EPXDLCO3",
  chars% "C3DIALO2", chars% "MALDIALO2", chars% "OXYL1O2", chars% "C5CO14O2", chars% "OXYLCO3",
  chars% "EPXM2DLCO3", chars% "C4MCO2O2", chars% "DM123O2", chars% "MXYLCO3", chars% "MXYL1O2",
  chars% "C3MCODBCO3", chars% "EPXMDLCO3", chars% "C3MDIALO2", chars% "MXY1O2", chars% "PXYLCO3", chars% "PXYL1O2", chars% "PXY1O2"]

def ro2Names18 : List Str := [
  chars% "C6H5CH2CO3", chars% "EBENZO2", chars% "C6DCARBBO2", chars% "PHCOETO2", chars% "PBENZO2", chars% "C7DCCO3", chars% "IPBENZO2", chars% "IC7DCCO3", chars% "IPGLOO", chars% "TM123BCO3", chars% "TM123O2", chars% "EPXKTMCO3", chars% "C4CO2O2", chars% "TM124BCO3",
  chars% "DM124O2", chars% "TM124O2", chars% "TMBCO3", chars% "DMPHO2", chars% "C4MCODBCO3",
  chars% "EPXMKTCO3", chars% "CO24C53O2", chars% "MPHCOMEO2", chars% "EPXMEDLCO3", chars% "C4ECO2O2", chars% "OET1O2", chars% "MET1O2", chars% "PET1O2", chars% "DMPHCOMO2", chars% "EMPHCOMO2", chars% "EMPHCO3"]

def ro2Names19 : List Str := [
  chars% "C7CODBCO3", chars% "EPXEKTCO3", chars% "C3EDIALO2", chars% "CO24C63O2", chars% "CCL3CO3", chars% "CLETO3", chars% "CL2OHCO3", chars% "CL12CO3", chars% "CLCOCLMEO2", chars% "CHCL2CO3", chars% "CLCOCH2O2", chars% "CLCOCLO2", chars% "CCLOHCO3", chars% "HNMVKO2", chars% "NC3CO3", chars% "C42O2", chars% "HC3CO3", chars% "C41O2", chars% "MVKOHAO2", chars% "MVKOHBO2", chars% "HC3CCO3", chars% "INCO2", chars% "NC4CO3", chars% "C510O2", chars% "C536O2", chars% "C537O2", chars% "INAO2", chars% "C58O2", chars% "HC4CO3", chars% "CHOCOMOXO2"]

def ro2Names20 : List Str := [
  chars% "ACETMECO3", chars% "HOACETETO2", chars% "MECOACETO2", chars% "ACPRONEO2", chars% "ACCOETO2", chars% "ACETC2CO3", chars% "IPRACBCO3", chars% "ACBUONEAO2", chars% "ACBUONEBO2",
  chars% "ACCOC3H6O2", chars% "SBUACONEO2", chars% "TBUACCO3", chars% "MTBEACHOO2", chars% "MTBEBCO3", chars% "IPROC21O2", chars% "IPROMCCO3", chars% "EIPEO2", chars% "ETBEACO3", chars% "ETBECCO3", chars% "BOXCOEOLO2", chars% "BRETO3", chars% "HO1CO3C4O2", chars% "BIACETO2",
  chars% "HO2CO4C5O2", chars% "CO23C54O2", chars% "HOCO3C54O2", chars% "C53O2", chars% "C41CO3",
  chars% "CO2HOC61O2", chars% "CO24C6O2"]

def ro2Names21 : List Str := [
  chars% "CO25C6O2", chars% "HO2C4O2", chars% "C61O2", chars% "CO23C65O2", chars% "C6CO3OH5O2",
  chars% "C6CO34O2", chars% "C6HO1CO3O2", chars% "C3COCCO3", chars% "PEN2ONE1O2", chars% "MIBK3COO2", chars% "C612O2", chars% "CO2M33CO3", chars% "C6COCHOO2", chars% "CY6DIONO2",
  chars% "NC101O2", chars% "C96CO3", chars% "C720O2", chars% "NC91CO3", chars% "C8BCO2", chars% "C918CO3", chars% "C923CO3", chars% "C141CO3", chars% "NBCALO2", chars% "BCALO2", chars% "BCSOZO2", chars% "C151O2", chars% "C152O2", chars% "MMFO2", chars% "MMCFO2", chars% "DMSO2O2"]

def ro2Names22 : List Str := [
  chars% "CHOC4CO3", chars% "C6DIALO2", chars% "CHOC4O2", chars% "CYC6DIONO2", chars% "CONM2CO3", chars% "NBZFUO2", chars% "BZFUO2", chars% "CATEC1O2", chars% "MCATEC1O2", chars% "MC3CODBCO3", chars% "C4M2ALOHO2", chars% "C5DICARBO2", chars% "NTLFUO2", chars% "TLFUO2",
  chars% "MC4CODBCO3", chars% "MC5CO2OHO2", chars% "NOXYFUO2", chars% "C6OTKETO2", chars% "OXYFUO2", chars% "OXCATEC1O2", chars% "C5MCO2OHO2", chars% "NMXYFUO2", chars% "C23O3MO2",
  chars% "MXYFUO2", chars% "NPXYFUO2", chars% "MCOCOMOXO2", chars% "PXYFUO2", chars% "MXCATEC1O2", chars% "DMKOHO2", chars% "PXCATEC1O2"]

def ro2Names23 : List Str := [
  chars% "ECATEC1O2", chars% "C6DICARBO2", chars% "NEBFUO2", chars% "BUTALAO2", chars% "EBFUO2",
  chars% "C7CO3OHO2", chars% "PCATEC1O2", chars% "C7DCO2", chars% "NPBFUO2", chars% "C4CHOAO2",
  chars% "PBFUO2", chars% "C8CO3OHO2", chars% "PHCOMEO2", chars% "IPCATEC1O2", chars% "IC7DCO2",
  chars% "NIPBFUO2", chars% "IC4CHOAO2", chars% "IPBFUO2", chars% "C7MCO3OHO2", chars% "T123CAT1O2", chars% "C7ADCCO3", chars% "C7ADCO2", chars% "NTMB1FUO2", chars% "TMB1FUO2",
  chars% "NTMB2FUO2", chars% "MC6OTKETO2", chars% "TMB2FUO2", chars% "C7BDCO2", chars% "T124CAT1O2", chars% "OTCATEC1O2"]

def ro2Names24 : List Str := [
  chars% "MTCATEC1O2", chars% "C7EDCO2", chars% "PTCATEC1O2", chars% "C7DDCCO3", chars% "C7DDCO2", chars% "NMEBFUO2", chars% "C23O3EO2", chars% "MEBFUO2", chars% "EMPHO2", chars% "CH3COCCLO2", chars% "CLCOCCL2O2", chars% "C527O2", chars% "C526O2", chars% "HC4ACO3", chars% "C58AO2", chars% "INB1O2", chars% "INB2O2", chars% "HPC52O2", chars% "HC4CCO3", chars% "C57AO2", chars% "C57O2", chars% "INDO2", chars% "C59O2", chars% "C524O2", chars% "ETHFORMO2",
  chars% "IPRMEETO2", chars% "CHOOMCO3", chars% "PRONFORMO2", chars% "PRCOOMCO3", chars% "PRCOOMO2"]

def ro2Names25 : List Str := [
  chars% "BOXCOCHOO2", chars% "BOXFORMO2", chars% "PRONOCOPO2", chars% "BOXCOCOMO2", chars% "PINALO2", chars% "C108O2", chars% "C89CO3", chars% "C920CO3", chars% "C920O2", chars% "C97O2", chars% "C85CO3", chars% "C85O2", chars% "C719O2", chars% "C918O2", chars% "C9DCO2",
  chars% "C915O2", chars% "C917O2", chars% "NLIMALO2", chars% "LIMALO2", chars% "C729CO3",
  chars% "C822CO3", chars% "C924O2", chars% "C816CO3", chars% "NORLIMO2", chars% "C816O2",
  chars% "NLMKAO2", chars% "LMKAO2", chars% "LMKBO2", chars% "C146O2", chars% "C131CO3"]

def ro2Names26 : List Str := [
  chars% "BCLKAO2", chars% "BCLKBO2", chars% "BCLKCO2", chars% "C131O2", chars% "C147O2", chars% "C126CO3", chars% "C136CO3", chars% "C148O2", chars% "C1311O2", chars% "NC1313O2", chars% "C1313O2", chars% "C126O2", chars% "C144O2", chars% "C142O2", chars% "NBCKO2", chars% "BCKAO2", chars% "BCKBO2", chars% "CH3SOO", chars% "H13C43CO3", chars% "C42CO3", chars% "HOC3H6CO3", chars% "C3DIOLO2", chars% "HO2C4CO3", chars% "HOIBUTCO3", chars% "C63O2", chars% "HO3C5CO3", chars% "C64O2", chars% "HO2C54O2", chars% "HO2C54CO3", chars% "C66O2"]

def ro2Names27 : List Str := [
  chars% "CO3C54CO3", chars% "H2M2C4CO3", chars% "C67O2", chars% "C610O2", chars% "H2M3C4CO3",
  chars% "C68O2", chars% "C69O2", chars% "C611O2", chars% "HM33C3CO3", chars% "HM22C3O2", chars% "HM22C3CO3", chars% "HM2C43CO3", chars% "C71O2", chars% "C76O2", chars% "C77O2", chars% "C78O2", chars% "C711O2", chars% "H3M3C5O2", chars% "H3M3C5CO3", chars% "C82O2", chars% "C81O2", chars% "C93O2", chars% "C92O2", chars% "HO6C7O2", chars% "C103O2", chars% "C102O2",
  chars% "HO7C8O2", chars% "C113O2", chars% "C112O2", chars% "HO8C9O2"]

def ro2Names28 : List Str := [
  chars% "C123O2", chars% "C122O2", chars% "CO1H63O2", chars% "C3NO3COO2", chars% "NPHEN1O2",
  chars% "NNCATECO2", chars% "NCATECO2", chars% "NBZQO2", chars% "PBZQO2", chars% "NPTLQO2",
  chars% "PTLQO2", chars% "NCRES1O2", chars% "MNNCATECO2", chars% "MNCATECO2", chars% "NOXYOL1O2", chars% "NOXYQO2", chars% "OXYQO2", chars% "OXNNCATCO2", chars% "OXNCATECO2",
  chars% "C534O2", chars% "NMXYOL1O2", chars% "NMXYQO2", chars% "MXYQO2", chars% "MXNNCATCO2",
  chars% "MXNCATECO2", chars% "NPXYOL1O2", chars% "NPXYQO2", chars% "PXYQO2", chars% "PXNNCATCO2", chars% "PXNCATECO2"]

def ro2Names29 : List Str := [
  chars% "NEBNZ1O2", chars% "NPEBQO2", chars% "PEBQO2", chars% "ENNCATECO2", chars% "ENCATECO2",
  chars% "CO3H4CO3", chars% "PHCOCOCO2", chars% "NPBNZ1O2", chars% "NPPRBQO2", chars% "PPRBQO2",
  chars% "PNNCATECO2", chars% "PNCATECO2", chars% "C5O45OHCO3", chars% "NIPBNZ1O2", chars% "NIPRBQO2", chars% "IPRBQO2", chars% "IPNNCATCO2", chars% "IPNCATECO2", chars% "C4MOHOCO3",
  chars% "NT123L1O2", chars% "T123NNCTO2", chars% "T123NCATO2", chars% "NT124L1O2", chars% "NTM124QO2", chars% "TM124QO2", chars% "T124NNCTO2", chars% "T124NCATO2", chars% "C5CO234O2",
  chars% "NOETOL1O2", chars% "NOETLQO2"]

def ro2Names30 : List Str := [
  chars% "OETLQO2", chars% "OTNNCATCO2", chars% "OTNCATECO2", chars% "NMETOL1O2", chars% "NMETLQO2", chars% "METLQO2", chars% "MTNNCATCO2", chars% "MTNCATECO2", chars% "NPETOL1O2",
  chars% "NPETLQO2", chars% "PETLQO2", chars% "PTNNCATCO2", chars% "PTNCATECO2", chars% "CO234C65O2", chars% "H13CO2CO3", chars% "CO2N3CO3", chars% "C535O2", chars% "C58NO3CO3",
  chars% "ACCOCOMEO2", chars% "ACEETOHO2", chars% "ACCOMCOMO2", chars% "ACCOCOETO2", chars% "MTBEAALCO3", chars% "C62O2", chars% "HO13C4O2", chars% "HM22CO3", chars% "C6COCHOCO3", chars% "C5COCHOO2", chars% "CHOC2H4O2", chars% "HCOCH2CO3"]

def ro2Names31 : List Str := [
  chars% "CY6TRIONO2", chars% "C6CYTONO2", chars% "NC102O2", chars% "C512CO3", chars% "C89O2",
  chars% "C926O2", chars% "C817CO3", chars% "C817O2", chars% "NC826O2", chars% "C826O2", chars% "C729O2", chars% "LMLKAO2", chars% "LMLKBO2", chars% "C116CO3", chars% "C116O2", chars% "C129O2", chars% "C1210O2", chars% "CH3SOO2", chars% "C1H4C5CO3", chars% "CHOC4OHO2", chars% "HOC4CHOO2", chars% "C6145COO2", chars% "COHM2CO3", chars% "CO2C4CO3", chars% "HOBUT2CO3",
  chars% "CO3C5CO3", chars% "CO2C54CO3", chars% "C65O2", chars% "CO2M3C4CO3", chars% "C72O2"]

def ro2Names32 : List Str := [
  chars% "CO25C73O2", chars% "CO25C74O2", chars% "C712O2", chars% "C713O2", chars% "C714O2",
  chars% "C84O2", chars% "C94O2", chars% "C104O2", chars% "C114O2", chars% "C6H13CO3", chars% "C124O2", chars% "MALANHYO2", chars% "NDNPHENO2", chars% "DNPHENO2", chars% "NDNCRESO2",
  chars% "DNCRESO2", chars% "C6O4KETO2", chars% "NDNOXYOLO2", chars% "DNOXYOLO2", chars% "MMALANHYO2", chars% "CH3COCO3", chars% "NDNMXYOLO2", chars% "DNMXYOLO2", chars% "TL4OHNO2O2",
  chars% "NDNPXYOLO2", chars% "DNPXYOLO2", chars% "NDNEBNZLO2", chars% "DNEBNZLO2", chars% "NDNPBNZLO2", chars% "DNPBNZLO2"]

def ro2Names33 : List Str := [
  chars% "C61CO3", chars% "NDNIPBZLO2", chars% "DNIPBNZLO2", chars% "C62CO3", chars% "NDNT123LO2", chars% "DNT123LO2", chars% "TM124NO2O2", chars% "NDNT124LO2", chars% "DNT124LO2", chars% "MXYOHNO2O2", chars% "NDNOETOLO2", chars% "DNOETOLO2", chars% "NDNMETOLO2", chars% "DNMETOLO2", chars% "NDNPETOLO2", chars% "DNPETOLO2", chars% "CO356OCO2",
  chars% "C531O2", chars% "INCNCO3", chars% "IEACO3", chars% "IECCO3", chars% "HPC52CO3", chars% "INDHCO3", chars% "C57NO3CO3", chars% "INAHPCO3", chars% "INANCO3", chars% "INAHCO3", chars% "NC524O2", chars% "C525O2", chars% "HMACO3"]

def ro2Names34 : List Str := [
  chars% "HMACRO2", chars% "ACCOMECO3", chars% "IPRFORMO2", chars% "PRCOFORMO2", chars% "PRONOCOMO2", chars% "CO23C4CO3", chars% "C5CO34CO3", chars% "C106O2", chars% "C717O2", chars% "C811CO3", chars% "C921O2", chars% "C98O2", chars% "C86O2", chars% "C919O2", chars% "C914O2",
  chars% "C916O2", chars% "C88CO3", chars% "C88O2", chars% "C512O2", chars% "C619O2", chars% "C626CO3", chars% "C626O2", chars% "C735O2", chars% "C822O2", chars% "C823CO3", chars% "C925O2", chars% "C622CO3", chars% "C1011CO3", chars% "C1210CO3", chars% "C132O2"]

def ro2Names35 : List Str := [
  chars% "C137CO3", chars% "C1013CO3", chars% "C1312O2", chars% "C127O2", chars% "C143O2",
  chars% "CH3SO2O2", chars% "HO24C5O2", chars% "C55O2", chars% "C67CO3", chars% "H3M2C4CO3",
  chars% "C79O2", chars% "H3M3C4CO3", chars% "H13M3C5O2", chars% "HO4C5CO3", chars% "HO5C6CO3",
  chars% "HO6C7CO3", chars% "HO7C8CO3", chars% "HO8C9CO3", chars% "C5CO2OHCO3", chars% "C6CO2OHCO3", chars% "C5M2OHOCO3", chars% "C4COMOHCO3", chars% "C23O3MCO3", chars% "C23O3CCO3", chars% "C7CO2OHCO3", chars% "C6MOHCOCO3", chars% "C7OHCO2CO3", chars% "ECO3CO3",
  chars% "C8OHCO2CO3", chars% "C8CO2OHCO3"]

def ro2Names36 : List Str := [
  chars% "NDMMALYO2", chars% "DMMALYO2", chars% "C7MOHCOCO3", chars% "C5MEJCO3", chars% "C6EO2OHCO3", chars% "C7MJPCO3", chars% "C23O3ECO3", chars% "EMPOHNO2O2", chars% "C47CO3",
  chars% "INB1HPCO3", chars% "INB1NACO3", chars% "INB1NBCO3", chars% "MMALNACO3", chars% "MMALNBCO3", chars% "INDHPCO3", chars% "INANCOCO3", chars% "HIEB1O2", chars% "HIEB2O2", chars% "HO13C3CO3", chars% "C5CO23O2", chars% "CHOC2CO3", chars% "CHOC3COCO3", chars% "C5124COCO3",
  chars% "CO235C6CO3", chars% "NC71O2", chars% "C811O2", chars% "CHOC3COO2", chars% "H3C25C6CO3", chars% "H3C25C6O2", chars% "C810O2"]

def ro2Names37 : List Str := [
  chars% "C818O2", chars% "C727CO3", chars% "NC728O2", chars% "C728O2", chars% "C622O2", chars% "C823O2", chars% "C819O2", chars% "C731CO3", chars% "C1011O2", chars% "C137O2", chars% "C1013O2", chars% "C1010O2", chars% "C117O2", chars% "C830CO3", chars% "C145O2", chars% "C927O2", chars% "C1214O2", chars% "CHOC4DOLO2", chars% "C6TRONOHO2", chars% "C23C54CO3",
  chars% "C73O2", chars% "C74O2", chars% "C715O2", chars% "C83O2", chars% "C95O2", chars% "C105O2", chars% "C115O2", chars% "C125O2", chars% "C4CO2DBCO3", chars% "C5CO2DBCO3"]

def ro2Names38 : List Str := [
  chars% "C4DBM2CO3", chars% "C5DBCO2CO3", chars% "C7CO2DBCO3", chars% "C8CO2DBCO3", chars% "C8DBCO2CO3", chars% "C4DBMECO3", chars% "C5DBECO3", chars% "C5EDBCO3", chars% "C31CO3",
  chars% "C533O2", chars% "MECOFORMO2", chars% "C5124COO2", chars% "CO235C6O2", chars% "C716O2",
  chars% "C922O2", chars% "C614O2", chars% "C511O2", chars% "C620O2", chars% "C87CO3", chars% "C616O2", chars% "C718CO3", chars% "C513O2", chars% "CO25C6CO3", chars% "C627O2", chars% "C727O2", chars% "C511CO3", chars% "C517CO3", chars% "C517O2", chars% "C628O2", chars% "C824O2"]

def ro2Names39 : List Str := [
  chars% "C1211CO3", chars% "C133O2", chars% "C830O2", chars% "C128O2", chars% "HO24C4CO3",
  chars% "C613O2", chars% "CO2OH3MCO3", chars% "C812O2", chars% "C721CO3", chars% "C721O2",
  chars% "H3C2C4CO3", chars% "C87O2", chars% "C718O2", chars% "C514O2", chars% "C820O2", chars% "C518CO3", chars% "NC623O2", chars% "C623O2", chars% "C825O2", chars% "C731O2", chars% "C732CO3", chars% "C1012O2", chars% "C1211O2", chars% "C139O2", chars% "C1014O2", chars% "C736O2", chars% "C118O2", chars% "C928CO3", chars% "C630O2", chars% "C1215O2"]

def ro2Names40 : List Str := [
  chars% "EMALANHYO2", chars% "PMALANHYO2", chars% "IPMALNHYO2", chars% "C312COCO3", chars% "CHOCOCH2O2", chars% "NC72O2", chars% "C621O2", chars% "C515CO3", chars% "C515O2", chars% "C821O2", chars% "HMVKBCO3", chars% "C520O2", chars% "C624CO3", chars% "C732O2", chars% "C829O2", chars% "C134O2", chars% "C827CO3", chars% "C522CO3", chars% "C831O2", chars% "C928O2", chars% "C46CO3", chars% "C930O2", chars% "C813O2", chars% "C722O2", chars% "C615CO3", chars% "C617CO3", chars% "C618CO3", chars% "C617O2", chars% "C618O2", chars% "NC730O2"]

def ro2Names41 : List Str := [
  chars% "C730O2", chars% "C624O2", chars% "C733O2", chars% "C1212O2", chars% "C827O2", chars% "C1310O2", chars% "NC61CO3", chars% "C615O2", chars% "C519CO3", chars% "C629O2", chars% "C734O2", chars% "C521O2", chars% "C135O2", chars% "COO2C4CO3", chars% "COO2C4O2", chars% "C929O2", chars% "C516O2", chars% "C44O2", chars% "H1C23C4CO3", chars% "H1C23C4O2", chars% "CO1M22CO3", chars% "C519O2", chars% "C625O2", chars% "C1213O2", chars% "COO2C3CO3", chars% "C828CO3", chars% "C828O2"]

/-- `RO2_names`, lines 1787–2120. -/
def ro2Names : List Str :=
  ro2Names1 ++ ro2Names2 ++ ro2Names3 ++ ro2Names4 ++ ro2Names5 ++ ro2Names6 ++ ro2Names7 ++
  ro2Names8 ++ ro2Names9 ++ ro2Names10 ++ ro2Names11 ++ ro2Names12 ++ ro2Names13 ++ ro2Names14
  ++ ro2Names15 ++ ro2Names16 ++ ro2Names17 ++ ro2Names18 ++ ro2Names19 ++ ro2Names20 ++
  ro2Names21 ++ ro2Names22 ++ ro2Names23 ++ ro2Names24 ++ ro2Names25 ++ ro2Names26 ++ ro2Names27
  ++ ro2Names28 ++ ro2Names29 ++ ro2Names30 ++ ro2Names31 ++ ro2Names32 ++ ro2Names33 ++
  ro2Names34 ++ ro2Names35 ++ ro2Names36 ++ ro2Names37 ++ ro2Names38 ++ ro2Names39 ++ ro2Names40
  ++ ro2Names41

namespace Spec

def peroxyRadicals1 : List Str := [
  chars% "HOCH2CH2O2", chars% "HO1C3O2", chars% "HYPROPO2", chars% "IPROPOLO2", chars% "NBUTOLAO2", chars% "NBUTOLBO2", chars% "BUT2OLO2", chars% "IBUTOLBO2", chars% "IBUTOLCO2",
  chars% "TBUTOLO2", chars% "HO3C5O2", chars% "PE2ENEBO2", chars% "HM2C43O2", chars% "M2BUOL2O2", chars% "HM33C3O2", chars% "ME3BUOLO2", chars% "HO2M2C4O2", chars% "ME2BU2OLO2",
  chars% "PROL11MO2", chars% "H2M3C4O2", chars% "ME2BUOLO2", chars% "CYHEXOLAO2", chars% "MIBKAOHAO2", chars% "MIBKAOHBO2", chars% "MIBKHO4O2", chars% "CH3CO3", chars% "NMBOAO2",
  chars% "NMBOBO2", chars% "MBOAO2", chars% "MBOBO2"]

def peroxyRadicals2 : List Str := [
  chars% "CH3O2", chars% "HCOCH2O2", chars% "C2H5CO3", chars% "C2H5O2", chars% "C3H7CO3", chars% "BUTALO2", chars% "NC3H7O2", chars% "IPRCO3", chars% "IBUTALBO2", chars% "IBUTALCO2", chars% "IC3H7O2", chars% "C4H9CO3", chars% "C4CHOBO2", chars% "NC4H9O2", chars% "ACO3", chars% "ACRO2", chars% "OCCOHCO2", chars% "CH3C2H2O2", chars% "MACO3", chars% "MACRO2", chars% "MACROHO2", chars% "C3DBCO3", chars% "C4CONO3O2", chars% "C4NO3COO2", chars% "C4OCCOHCO2",
  chars% "COCCOH2CO2", chars% "SC4H9O2", chars% "IC4H9O2", chars% "TC4H9O2", chars% "PEAO2"]

def peroxyRadicals3 : List Str := [
  chars% "PEBO2", chars% "PECO2", chars% "IPEAO2", chars% "IPEBO2", chars% "IPECO2", chars% "NEOPO2", chars% "HEXAO2", chars% "HEXBO2", chars% "HEXCO2", chars% "M2PEAO2", chars% "M2PEBO2", chars% "M2PECO2", chars% "M2PEDO2", chars% "M3PEAO2", chars% "M3PEBO2", chars% "M3PECO2", chars% "M22C43O2", chars% "M22C4O2", chars% "M33C4O2", chars% "M23C43O2", chars% "M23C4O2", chars% "HEPTO2", chars% "M2HEXAO2", chars% "M2HEXBO2", chars% "M3HEXAO2", chars% "M3HEXBO2", chars% "OCTO2", chars% "NONO2", chars% "DECO2", chars% "UDECO2"]

def peroxyRadicals4 : List Str := [
  chars% "DDECO2", chars% "CHEXO2", chars% "ETHENO3O2", chars% "PRONO3AO2", chars% "PRONO3BO2",
  chars% "BU1ENO3O2", chars% "C43NO34O2", chars% "HO3C4O2", chars% "C42NO33O2", chars% "MPRANO3O2", chars% "MPRBNO3O2", chars% "C51NO32O2", chars% "C52NO31O2", chars% "PE1ENEAO2",
  chars% "PE1ENEBO2", chars% "C52NO33O2", chars% "C53NO32O2", chars% "PE2ENEAO2", chars% "C4NO32M1O2", chars% "C4NO32M2O2", chars% "C4M3NO31O2", chars% "C4M3NO32O2", chars% "IPRCHOOA", chars% "ME3BU2OLO2", chars% "C4M2NO32O2", chars% "C4M2NO33O2", chars% "C65NO36O2",
  chars% "C66NO35O2", chars% "C6OH5O2", chars% "HO5C6O2"]

def peroxyRadicals5 : List Str := [
  chars% "C62NO33O2", chars% "C63NO32O2", chars% "C64OH5O2", chars% "C65OH4O2", chars% "C4ME2NO3O2", chars% "C4ME2OHO2", chars% "BZBIPERO2", chars% "C6H5CH2O2", chars% "TLBIPERO2",
  chars% "OXYLO2", chars% "OXYBIPERO2", chars% "MXYLO2", chars% "MXYBIPERO2", chars% "PXYLO2",
  chars% "PXYBIPERO2", chars% "C6H5C2H4O2", chars% "EBZBIPERO2", chars% "PHC3O2", chars% "PBZBIPERO2", chars% "PHIC3O2", chars% "IPBZBIPRO2", chars% "TM123BO2", chars% "TM123BPRO2",
  chars% "TM124BO2", chars% "TM124BPRO2", chars% "TMBO2", chars% "TM135BPRO2", chars% "ETOLO2",
  chars% "OETLBIPRO2", chars% "METLBIPRO2"]

def peroxyRadicals6 : List Str := [
  chars% "PETLBIPRO2", chars% "DM35EBO2", chars% "DMEBIPRO2", chars% "DE35TO2", chars% "DETLBIPRO2", chars% "NSTYRENO2", chars% "STYRENO2", chars% "C6H5CO3", chars% "C6H5O2", chars% "CH2CLO2", chars% "CHCL2O2", chars% "CCL3O2", chars% "CCL3CH2O2", chars% "TCEOHO2", chars% "C2CL3OHAO2", chars% "C2CL3OHBO2", chars% "C2CL2OHO2", chars% "DICLETO2", chars% "CH2OHCL2O2",
  chars% "CL2OHCH2O2", chars% "CL12PRAO2", chars% "CL12PRBO2", chars% "CL12PRCO2", chars% "CH3CCL2O2", chars% "CHCL2CH2O2", chars% "CH2CLCH2O2", chars% "CH3CHCLO2", chars% "CHCL2CL2O2", chars% "CH2CL3O2", chars% "CHCL3O2"]

def peroxyRadicals7 : List Str := [
  chars% "CCLNO3O2", chars% "CNO3CLO2", chars% "CCLOHCH2O2", chars% "CH2OHCCLO2", chars% "NBUTDAO2", chars% "NBUTDBO2", chars% "BUTDAO2", chars% "BUTDBO2", chars% "BUTDCO2", chars% "NISOPO2", chars% "ISOP34O2", chars% "CHOOCH2O2", chars% "METHACETO2", chars% "MOCOCH2O2",
  chars% "ACETC2H4O2", chars% "EOCOCH2O2", chars% "ETHACETO2", chars% "NPROACEAO2", chars% "NPROACEBO2", chars% "NPROACECO2", chars% "IPRACBO2", chars% "IPROACETO2", chars% "NBUACETAO2", chars% "NBUACETBO2", chars% "NBUACETCO2", chars% "SBUACETAO2", chars% "SBUACETBO2", chars% "MCOOTBO2", chars% "TBOCOCH2O2", chars% "CH3OCH2O2"]

def peroxyRadicals8 : List Str := [
  chars% "DIETETO2", chars% "ETOC2O2", chars% "MTBEAO2", chars% "MTBEBO2", chars% "DIIPRETO2",
  chars% "IPROMC2O2", chars% "ETBEAO2", chars% "ETBEBO2", chars% "ETBECO2", chars% "MO2EOLAO2",
  chars% "MO2EOLBO2", chars% "EOX2EOLAO2", chars% "EOX2EOLBO2", chars% "PR2OHMOXO2", chars% "H2C3OCO2", chars% "BOX2EOHAO2", chars% "BOX2EOHBO2", chars% "BOXPROLAO2", chars% "BOXPROLBO2", chars% "CH2BRO2", chars% "DIBRETO2", chars% "CH3COCH2O2", chars% "MEKAO2",
  chars% "MEKBO2", chars% "MEKCO2", chars% "CO2C54O2", chars% "MPRKAO2", chars% "DIEKAO2",
  chars% "DIEKBO2", chars% "MIPKAO2"]

def peroxyRadicals9 : List Str := [
  chars% "MIPKBO2", chars% "HEX2ONAO2", chars% "HEX2ONBO2", chars% "HEX2ONCO2", chars% "HEX3ONAO2", chars% "HEX3ONBO2", chars% "HEX3ONCO2", chars% "HEX3ONDO2", chars% "MIBKAO2",
  chars% "MIBKBO2", chars% "MTBKO2", chars% "CYHXONAO2", chars% "NAPINAO2", chars% "NAPINBO2",
  chars% "APINAO2", chars% "APINBO2", chars% "APINCO2", chars% "NBPINAO2", chars% "NBPINBO2",
  chars% "BPINAO2", chars% "BPINBO2", chars% "BPINCO2", chars% "NLIMO2", chars% "LIMAO2", chars% "LIMBO2", chars% "LIMCO2", chars% "NBCO2", chars% "BCAO2", chars% "BCBO2", chars% "BCCO2"]

def peroxyRadicals10 : List Str := [
  chars% "DMMAO2", chars% "DMMBO2", chars% "DMCO2", chars% "CH3SCH2O2", chars% "HODMSO2", chars% "ETHOXO2", chars% "BUT2CO3", chars% "C3ME3CO3", chars% "C3ME3CHOO2", chars% "HOCH2CO3", chars% "CH3CHOHCO3", chars% "IPRHOCO3", chars% "IPRCHOO", chars% "BZEMUCCO3", chars% "BZEMUCO2",
  chars% "C5DIALO2", chars% "NPHENO2", chars% "PHENO2", chars% "CRESO2", chars% "NCRESO2",
  chars% "TLEMUCCO3", chars% "TLEMUCO2", chars% "C615CO2O2", chars% "OXYMUCCO3", chars% "OXYMUCO2", chars% "MC6CO2O2", chars% "NOXYOLO2", chars% "OXYOLO2", chars% "MXYMUCCO3", chars% "MXYMUCO2"]

def peroxyRadicals11 : List Str := [
  chars% "C726CO5O2", chars% "MXYOLO2", chars% "NMXYOLO2", chars% "PXYMUCCO3", chars% "PXYMUCO2", chars% "C6M5CO2O2", chars% "NPXYOLO2", chars% "PXYOLO2", chars% "EBENZOLO2",
  chars% "NEBNZOLO2", chars% "EBZMUCCO3", chars% "EBZMUCO2", chars% "C715CO2O2", chars% "NPBNZOLO2", chars% "PBENZOLO2", chars% "PBZMUCCO3", chars% "PBZMUCO2", chars% "C815CO2O2",
  chars% "IPBENZOLO2", chars% "NIPBNZOLO2", chars% "IPBZMUCCO3", chars% "IPGLOOB", chars% "IPBZMUCO2", chars% "C7M15CO2O2", chars% "NTM123OLO2", chars% "TM123OLO2", chars% "TM123MUCO2", chars% "NTM124OLO2", chars% "TM124OLO2", chars% "TM124MUCO3"]

def peroxyRadicals12 : List Str := [
  chars% "TM124MUCO2", chars% "C7CO2M5O2", chars% "NTM135OLO2", chars% "TM135OLO2", chars% "TM135MUCO3", chars% "TM135MUCO2", chars% "C7M2CO5O2", chars% "OETLMUCCO3", chars% "OETLMUCO2", chars% "MC7CO2O2", chars% "NOETOLO2", chars% "OETOLO2", chars% "METLMUCCO3",
  chars% "METLMUCO2", chars% "C826CO3O2", chars% "METOLO2", chars% "NMETOLO2", chars% "PETLMUCCO3", chars% "PETLMUCO2", chars% "C7M6CO2O2", chars% "NPETOLO2", chars% "PETOLO2",
  chars% "DMEBMUCO3", chars% "DMEBMUCO2", chars% "C8M2CO6O2", chars% "NDMEPHOLO2", chars% "DMEPHOLO2", chars% "NDEMPHOLO2", chars% "DEMPHOLO2", chars% "DETLMUCO3"]

def peroxyRadicals13 : List Str := [
  chars% "DETLMUCO2", chars% "C9M2CO6O2", chars% "HMVKAO2", chars% "HMVKBO2", chars% "MVKO2",
  chars% "CISOPAO2", chars% "ISOPBO2", chars% "CISOPCO2", chars% "ISOPDO2", chars% "NC526O2",
  chars% "C530O2", chars% "M3BU3ECO3", chars% "C45O2", chars% "NC51O2", chars% "C51O2", chars% "CH2CHCH2O2", chars% "ISOPAO2", chars% "ISOPCO2", chars% "MEMOXYCO3", chars% "EOX2MECO3",
  chars% "ETOMEO2", chars% "PRONEMOXO2", chars% "BOXMCO3", chars% "BOX2MO2", chars% "BOXPRONAO2", chars% "BOXPRONBO2", chars% "C107O2", chars% "C109O2", chars% "C96O2", chars% "NOPINAO2"]

def peroxyRadicals14 : List Str := [
  chars% "NOPINBO2", chars% "NOPINCO2", chars% "NOPINDO2", chars% "LIMALAO2", chars% "LIMALBO2",
  chars% "C923O2", chars% "BCALAO2", chars% "BCALBO2", chars% "C136O2", chars% "BCALCO2", chars% "C141O2", chars% "HOC2H4CO3", chars% "HOIPRCO3", chars% "HO13C5O2", chars% "HO3C4CO3", chars% "C54O2", chars% "H2M2C3CO3", chars% "PROL1MCO3", chars% "C56O2", chars% "HO2C43CO3", chars% "MIBKCOOHO2", chars% "NC4OHCO3", chars% "C4OH2CO3", chars% "CO2C3CO3", chars% "HO2C3CO3",
  chars% "IBUDIALCO3", chars% "PROPALO2", chars% "CO3C4CO3", chars% "HO1C4O2", chars% "A2PANOO"]

def peroxyRadicals15 : List Str := [
  chars% "HCOCOHCO3", chars% "HCOCO3", chars% "MACRNCO3", chars% "MACRNBCO3", chars% "CHOMOHCO3", chars% "CO2H3CO3", chars% "HO1C5O2", chars% "HO2C5O2", chars% "C52O2", chars% "TBUTCO3", chars% "HO1C6O2", chars% "C5H11CO3", chars% "HO2C6O2", chars% "HO3C6O2", chars% "HO1MC5O2", chars% "C54CO3", chars% "HO2MC5O2", chars% "EIPKAO2", chars% "EIPKBO2", chars% "HO2M2C5O2", chars% "H1MC5O2", chars% "M3C4CO3", chars% "H2MC5O2", chars% "M2BKAO2", chars% "M2BKBO2", chars% "HM33C4O2", chars% "M22C3CO3", chars% "HM22C4O2", chars% "M33C3CO3", chars% "HM23C4O2"]

def peroxyRadicals16 : List Str := [
  chars% "M2C43CO3", chars% "HO3C76O2", chars% "CO3C75O2", chars% "H2M5C65O2", chars% "C75O2",
  chars% "H2M2C65O2", chars% "H2M4C65O2", chars% "C710O2", chars% "H3M3C6O2", chars% "HO3C86O2",
  chars% "CO3C85O2", chars% "HO3C96O2", chars% "C91O2", chars% "HO3C106O2", chars% "C101O2",
  chars% "HO3C116O2", chars% "C111O2", chars% "HO3C126O2", chars% "C121O2", chars% "CO1C6O2",
  chars% "NO3CH2CO3", chars% "PRNO3CO3", chars% "CO3C4NO3O2", chars% "HO3C3CO3", chars% "MPRBNO3CO3", chars% "C5NO3COAO2", chars% "C4NO3CO3", chars% "C5OH2CO4O2", chars% "C4OHCO3",
  chars% "C5NO3CO4O2"]

def peroxyRadicals17 : List Str := [
  chars% "C5CONO34O2", chars% "C43NO3CO3", chars% "C4MCONO3O2", chars% "C3MNO3CO3", chars% "C3M3OH2CO3", chars% "MC4CONO3O2", chars% "C65NO36CO3", chars% "MNO3COC4O2", chars% "C4COMOH3O2", chars% "HO5C5CO3", chars% "C6NO3CO5O2", chars% "C6CONO34O2", chars% "MALDIALCO3", chars% "EPXDLCO3", chars% "C3DIALO2", chars% "MALDIALO2", chars% "OXYL1O2",
  chars% "C5CO14O2", chars% "OXYLCO3", chars% "EPXM2DLCO3", chars% "C4MCO2O2", chars% "DM123O2",
  chars% "MXYLCO3", chars% "MXYL1O2", chars% "C3MCODBCO3", chars% "EPXMDLCO3", chars% "C3MDIALO2", chars% "MXY1O2", chars% "PXYLCO3", chars% "PXYL1O2"]

def peroxyRadicals18 : List Str := [
  chars% "PXY1O2", chars% "C6H5CH2CO3", chars% "EBENZO2", chars% "C6DCARBBO2", chars% "PHCOETO2", chars% "PBENZO2", chars% "C7DCCO3", chars% "IPBENZO2", chars% "IC7DCCO3", chars% "IPGLOO", chars% "TM123BCO3", chars% "TM123O2", chars% "EPXKTMCO3", chars% "C4CO2O2", chars% "TM124BCO3", chars% "DM124O2", chars% "TM124O2", chars% "TMBCO3", chars% "DMPHO2", chars% "C4MCODBCO3", chars% "EPXMKTCO3", chars% "CO24C53O2", chars% "MPHCOMEO2", chars% "EPXMEDLCO3",
  chars% "C4ECO2O2", chars% "OET1O2", chars% "MET1O2", chars% "PET1O2", chars% "DMPHCOMO2",
  chars% "EMPHCOMO2"]

def peroxyRadicals19 : List Str := [
  chars% "EMPHCO3", chars% "C7CODBCO3", chars% "EPXEKTCO3", chars% "C3EDIALO2", chars% "CO24C63O2", chars% "CCL3CO3", chars% "CLETO3", chars% "CL2OHCO3", chars% "CL12CO3", chars% "CLCOCLMEO2", chars% "CHCL2CO3", chars% "CLCOCH2O2", chars% "CLCOCLO2", chars% "CCLOHCO3",
  chars% "HNMVKO2", chars% "NC3CO3", chars% "C42O2", chars% "HC3CO3", chars% "C41O2", chars% "MVKOHAO2", chars% "MVKOHBO2", chars% "HC3CCO3", chars% "INCO2", chars% "NC4CO3", chars% "C510O2", chars% "C536O2", chars% "C537O2", chars% "INAO2", chars% "C58O2", chars% "HC4CO3"]

def peroxyRadicals20 : List Str := [
  chars% "CHOCOMOXO2", chars% "ACETMECO3", chars% "HOACETETO2", chars% "MECOACETO2", chars% "ACPRONEO2", chars% "ACCOETO2", chars% "ACETC2CO3", chars% "IPRACBCO3", chars% "ACBUONEAO2",
  chars% "ACBUONEBO2", chars% "ACCOC3H6O2", chars% "SBUACONEO2", chars% "TBUACCO3", chars% "MTBEACHOO2", chars% "MTBEBCO3", chars% "IPROC21O2", chars% "IPROMCCO3", chars% "EIPEO2",
  chars% "ETBEACO3", chars% "ETBECCO3", chars% "BOXCOEOLO2", chars% "BRETO3", chars% "HO1CO3C4O2", chars% "BIACETO2", chars% "HO2CO4C5O2", chars% "CO23C54O2", chars% "HOCO3C54O2",
  chars% "C53O2", chars% "C41CO3", chars% "CO2HOC61O2"]

def peroxyRadicals21 : List Str := [
  chars% "CO24C6O2", chars% "CO25C6O2", chars% "HO2C4O2", chars% "C61O2", chars% "CO23C65O2",
  chars% "C6CO3OH5O2", chars% "C6CO34O2", chars% "C6HO1CO3O2", chars% "C3COCCO3", chars% "PEN2ONE1O2", chars% "MIBK3COO2", chars% "C612O2", chars% "CO2M33CO3", chars% "C6COCHOO2",
  chars% "CY6DIONO2", chars% "NC101O2", chars% "C96CO3", chars% "C720O2", chars% "NC91CO3",
  chars% "C8BCO2", chars% "C918CO3", chars% "C923CO3", chars% "C141CO3", chars% "NBCALO2",
  chars% "BCALO2", chars% "BCSOZO2", chars% "C151O2", chars% "C152O2", chars% "MMFO2", chars% "MMCFO2"]

def peroxyRadicals22 : List Str := [
  chars% "DMSO2O2", chars% "CHOC4CO3", chars% "C6DIALO2", chars% "CHOC4O2", chars% "CYC6DIONO2",
  chars% "CONM2CO3", chars% "NBZFUO2", chars% "BZFUO2", chars% "CATEC1O2", chars% "MCATEC1O2",
  chars% "MC3CODBCO3", chars% "C4M2ALOHO2", chars% "C5DICARBO2", chars% "NTLFUO2", chars% "TLFUO2", chars% "MC4CODBCO3", chars% "MC5CO2OHO2", chars% "NOXYFUO2", chars% "C6OTKETO2",
  chars% "OXYFUO2", chars% "OXCATEC1O2", chars% "C5MCO2OHO2", chars% "NMXYFUO2", chars% "C23O3MO2", chars% "MXYFUO2", chars% "NPXYFUO2", chars% "MCOCOMOXO2", chars% "PXYFUO2", chars% "MXCATEC1O2", chars% "DMKOHO2"]

def peroxyRadicals23 : List Str := [
  chars% "PXCATEC1O2", chars% "ECATEC1O2", chars% "C6DICARBO2", chars% "NEBFUO2", chars% "BUTALAO2", chars% "EBFUO2", chars% "C7CO3OHO2", chars% "PCATEC1O2", chars% "C7DCO2", chars% "NPBFUO2", chars% "C4CHOAO2", chars% "PBFUO2", chars% "C8CO3OHO2", chars% "PHCOMEO2", chars% "IPCATEC1O2", chars% "IC7DCO2", chars% "NIPBFUO2", chars% "IC4CHOAO2", chars% "IPBFUO2",
  chars% "C7MCO3OHO2", chars% "T123CAT1O2", chars% "C7ADCCO3", chars% "C7ADCO2", chars% "NTMB1FUO2", chars% "TMB1FUO2", chars% "NTMB2FUO2", chars% "MC6OTKETO2", chars% "TMB2FUO2",
  chars% "C7BDCO2", chars% "T124CAT1O2"]

def peroxyRadicals24 : List Str := [
  chars% "OTCATEC1O2", chars% "MTCATEC1O2", chars% "C7EDCO2", chars% "PTCATEC1O2", chars% "C7DDCCO3", chars% "C7DDCO2", chars% "NMEBFUO2", chars% "C23O3EO2", chars% "MEBFUO2", chars% "EMPHO2", chars% "CH3COCCLO2", chars% "CLCOCCL2O2", chars% "C527O2", chars% "C526O2", chars% "HC4ACO3", chars% "C58AO2", chars% "INB1O2", chars% "INB2O2", chars% "HPC52O2", chars% "HC4CCO3", chars% "C57AO2", chars% "C57O2", chars% "INDO2", chars% "C59O2", chars% "C524O2",
  chars% "ETHFORMO2", chars% "IPRMEETO2", chars% "CHOOMCO3", chars% "PRONFORMO2", chars% "PRCOOMCO3"]

def peroxyRadicals25 : List Str := [
  chars% "PRCOOMO2", chars% "BOXCOCHOO2", chars% "BOXFORMO2", chars% "PRONOCOPO2", chars% "BOXCOCOMO2", chars% "PINALO2", chars% "C108O2", chars% "C89CO3", chars% "C920CO3", chars% "C920O2", chars% "C97O2", chars% "C85CO3", chars% "C85O2", chars% "C719O2", chars% "C918O2",
  chars% "C9DCO2", chars% "C915O2", chars% "C917O2", chars% "NLIMALO2", chars% "LIMALO2", chars% "C729CO3", chars% "C822CO3", chars% "C924O2", chars% "C816CO3", chars% "NORLIMO2", chars% "C816O2", chars% "NLMKAO2", chars% "LMKAO2", chars% "LMKBO2", chars% "C146O2"]

def peroxyRadicals26 : List Str := [
  chars% "C131CO3", chars% "BCLKAO2", chars% "BCLKBO2", chars% "BCLKCO2", chars% "C131O2",
  chars% "C147O2", chars% "C126CO3", chars% "C136CO3", chars% "C148O2", chars% "C1311O2", chars% "NC1313O2", chars% "C1313O2", chars% "C126O2", chars% "C144O2", chars% "C142O2", chars% "NBCKO2", chars% "BCKAO2", chars% "BCKBO2", chars% "CH3SOO", chars% "H13C43CO3", chars% "C42CO3", chars% "HOC3H6CO3", chars% "C3DIOLO2", chars% "HO2C4CO3", chars% "HOIBUTCO3", chars% "C63O2", chars% "HO3C5CO3", chars% "C64O2", chars% "HO2C54O2", chars% "HO2C54CO3"]

def peroxyRadicals27 : List Str := [
  chars% "C66O2", chars% "CO3C54CO3", chars% "H2M2C4CO3", chars% "C67O2", chars% "C610O2",
  chars% "H2M3C4CO3", chars% "C68O2", chars% "C69O2", chars% "C611O2", chars% "HM33C3CO3",
  chars% "HM22C3O2", chars% "HM22C3CO3", chars% "HM2C43CO3", chars% "C71O2", chars% "C76O2",
  chars% "C77O2", chars% "C78O2", chars% "C711O2", chars% "H3M3C5O2", chars% "H3M3C5CO3", chars% "C82O2", chars% "C81O2", chars% "C93O2", chars% "C92O2", chars% "HO6C7O2", chars% "C103O2",
  chars% "C102O2", chars% "HO7C8O2", chars% "C113O2", chars% "C112O2"]

def peroxyRadicals28 : List Str := [
  chars% "HO8C9O2", chars% "C123O2", chars% "C122O2", chars% "CO1H63O2", chars% "C3NO3COO2",
  chars% "NPHEN1O2", chars% "NNCATECO2", chars% "NCATECO2", chars% "NBZQO2", chars% "PBZQO2",
  chars% "NPTLQO2", chars% "PTLQO2", chars% "NCRES1O2", chars% "MNNCATECO2", chars% "MNCATECO2",
  chars% "NOXYOL1O2", chars% "NOXYQO2", chars% "OXYQO2", chars% "OXNNCATCO2", chars% "OXNCATECO2", chars% "C534O2", chars% "NMXYOL1O2", chars% "NMXYQO2", chars% "MXYQO2", chars% "MXNNCATCO2", chars% "MXNCATECO2", chars% "NPXYOL1O2", chars% "NPXYQO2", chars% "PXYQO2",
  chars% "PXNNCATCO2"]

def peroxyRadicals29 : List Str := [
  chars% "PXNCATECO2", chars% "NEBNZ1O2", chars% "NPEBQO2", chars% "PEBQO2", chars% "ENNCATECO2", chars% "ENCATECO2", chars% "CO3H4CO3", chars% "PHCOCOCO2", chars% "NPBNZ1O2",
  chars% "NPPRBQO2", chars% "PPRBQO2", chars% "PNNCATECO2", chars% "PNCATECO2", chars% "C5O45OHCO3", chars% "NIPBNZ1O2", chars% "NIPRBQO2", chars% "IPRBQO2", chars% "IPNNCATCO2",
  chars% "IPNCATECO2", chars% "C4MOHOCO3", chars% "NT123L1O2", chars% "T123NNCTO2", chars% "T123NCATO2", chars% "NT124L1O2", chars% "NTM124QO2", chars% "TM124QO2", chars% "T124NNCTO2",
  chars% "T124NCATO2", chars% "C5CO234O2", chars% "NOETOL1O2"]

def peroxyRadicals30 : List Str := [
  chars% "NOETLQO2", chars% "OETLQO2", chars% "OTNNCATCO2", chars% "OTNCATECO2", chars% "NMETOL1O2", chars% "NMETLQO2", chars% "METLQO2", chars% "MTNNCATCO2", chars% "MTNCATECO2",
  chars% "NPETOL1O2", chars% "NPETLQO2", chars% "PETLQO2", chars% "PTNNCATCO2", chars% "PTNCATECO2", chars% "CO234C65O2", chars% "H13CO2CO3", chars% "CO2N3CO3", chars% "C535O2",
  chars% "C58NO3CO3", chars% "ACCOCOMEO2", chars% "ACEETOHO2", chars% "ACCOMCOMO2", chars% "ACCOCOETO2", chars% "MTBEAALCO3", chars% "C62O2", chars% "HO13C4O2", chars% "HM22CO3", chars% "C6COCHOCO3", chars% "C5COCHOO2", chars% "CHOC2H4O2"]

def peroxyRadicals31 : List Str := [
  chars% "HCOCH2CO3", chars% "CY6TRIONO2", chars% "C6CYTONO2", chars% "NC102O2", chars% "C512CO3", chars% "C89O2", chars% "C926O2", chars% "C817CO3", chars% "C817O2", chars% "NC826O2", chars% "C826O2", chars% "C729O2", chars% "LMLKAO2", chars% "LMLKBO2", chars% "C116CO3", chars% "C116O2", chars% "C129O2", chars% "C1210O2", chars% "CH3SOO2", chars% "C1H4C5CO3", chars% "CHOC4OHO2", chars% "HOC4CHOO2", chars% "C6145COO2", chars% "COHM2CO3",
  chars% "CO2C4CO3", chars% "HOBUT2CO3", chars% "CO3C5CO3", chars% "CO2C54CO3", chars% "C65O2",
  chars% "CO2M3C4CO3"]

def peroxyRadicals32 : List Str := [
  chars% "C72O2", chars% "CO25C73O2", chars% "CO25C74O2", chars% "C712O2", chars% "C713O2",
  chars% "C714O2", chars% "C84O2", chars% "C94O2", chars% "C104O2", chars% "C114O2", chars% "C6H13CO3", chars% "C124O2", chars% "MALANHYO2", chars% "NDNPHENO2", chars% "DNPHENO2", chars% "NDNCRESO2", chars% "DNCRESO2", chars% "C6O4KETO2", chars% "NDNOXYOLO2", chars% "DNOXYOLO2",
  chars% "MMALANHYO2", chars% "CH3COCO3", chars% "NDNMXYOLO2", chars% "DNMXYOLO2", chars% "TL4OHNO2O2", chars% "NDNPXYOLO2", chars% "DNPXYOLO2", chars% "NDNEBNZLO2", chars% "DNEBNZLO2", chars% "NDNPBNZLO2"]

def peroxyRadicals33 : List Str := [
  chars% "DNPBNZLO2", chars% "C61CO3", chars% "NDNIPBZLO2", chars% "DNIPBNZLO2", chars% "C62CO3", chars% "NDNT123LO2", chars% "DNT123LO2", chars% "TM124NO2O2", chars% "NDNT124LO2",
  chars% "DNT124LO2", chars% "MXYOHNO2O2", chars% "NDNOETOLO2", chars% "DNOETOLO2", chars% "NDNMETOLO2", chars% "DNMETOLO2", chars% "NDNPETOLO2", chars% "DNPETOLO2", chars% "CO356OCO2",
  chars% "C531O2", chars% "INCNCO3", chars% "IEACO3", chars% "IECCO3", chars% "HPC52CO3", chars% "INDHCO3", chars% "C57NO3CO3", chars% "INAHPCO3", chars% "INANCO3", chars% "INAHCO3", chars% "NC524O2", chars% "C525O2"]

def peroxyRadicals34 : List Str := [
  chars% "HMACO3", chars% "HMACRO2", chars% "ACCOMECO3", chars% "IPRFORMO2", chars% "PRCOFORMO2", chars% "PRONOCOMO2", chars% "CO23C4CO3", chars% "C5CO34CO3", chars% "C106O2",
  chars% "C717O2", chars% "C811CO3", chars% "C921O2", chars% "C98O2", chars% "C86O2", chars% "C919O2", chars% "C914O2", chars% "C916O2", chars% "C88CO3", chars% "C88O2", chars% "C512O2",
  chars% "C619O2", chars% "C626CO3", chars% "C626O2", chars% "C735O2", chars% "C822O2", chars% "C823CO3", chars% "C925O2", chars% "C622CO3", chars% "C1011CO3", chars% "C1210CO3"]

def peroxyRadicals35 : List Str := [
  chars% "C132O2", chars% "C137CO3", chars% "C1013CO3", chars% "C1312O2", chars% "C127O2",
  chars% "C143O2", chars% "CH3SO2O2", chars% "HO24C5O2", chars% "C55O2", chars% "C67CO3", chars% "H3M2C4CO3", chars% "C79O2", chars% "H3M3C4CO3", chars% "H13M3C5O2", chars% "HO4C5CO3", chars% "HO5C6CO3", chars% "HO6C7CO3", chars% "HO7C8CO3", chars% "HO8C9CO3", chars% "C5CO2OHCO3",
  chars% "C6CO2OHCO3", chars% "C5M2OHOCO3", chars% "C4COMOHCO3", chars% "C23O3MCO3", chars% "C23O3CCO3", chars% "C7CO2OHCO3", chars% "C6MOHCOCO3", chars% "C7OHCO2CO3", chars% "ECO3CO3",
  chars% "C8OHCO2CO3"]

def peroxyRadicals36 : List Str := [
  chars% "C8CO2OHCO3", chars% "NDMMALYO2", chars% "DMMALYO2", chars% "C7MOHCOCO3", chars% "C5MEJCO3", chars% "C6EO2OHCO3", chars% "C7MJPCO3", chars% "C23O3ECO3", chars% "EMPOHNO2O2",
  chars% "C47CO3", chars% "INB1HPCO3", chars% "INB1NACO3", chars% "INB1NBCO3", chars% "MMALNACO3", chars% "MMALNBCO3", chars% "INDHPCO3", chars% "INANCOCO3", chars% "HIEB1O2",
  chars% "HIEB2O2", chars% "HO13C3CO3", chars% "C5CO23O2", chars% "CHOC2CO3", chars% "CHOC3COCO3", chars% "C5124COCO3", chars% "CO235C6CO3", chars% "NC71O2", chars% "C811O2",
  chars% "CHOC3COO2", chars% "H3C25C6CO3", chars% "H3C25C6O2"]

def peroxyRadicals37 : List Str := [
  chars% "C810O2", chars% "C818O2", chars% "C727CO3", chars% "NC728O2", chars% "C728O2", chars% "C622O2", chars% "C823O2", chars% "C819O2", chars% "C731CO3", chars% "C1011O2", chars% "C137O2", chars% "C1013O2", chars% "C1010O2", chars% "C117O2", chars% "C830CO3", chars% "C145O2", chars% "C927O2", chars% "C1214O2", chars% "CHOC4DOLO2", chars% "C6TRONOHO2", chars% "C23C54CO3", chars% "C73O2", chars% "C74O2", chars% "C715O2", chars% "C83O2", chars% "C95O2",
  chars% "C105O2", chars% "C115O2", chars% "C125O2", chars% "C4CO2DBCO3"]

def peroxyRadicals38 : List Str := [
  chars% "C5CO2DBCO3", chars% "C4DBM2CO3", chars% "C5DBCO2CO3", chars% "C7CO2DBCO3", chars% "C8CO2DBCO3", chars% "C8DBCO2CO3", chars% "C4DBMECO3", chars% "C5DBECO3", chars% "C5EDBCO3",
  chars% "C31CO3", chars% "C533O2", chars% "MECOFORMO2", chars% "C5124COO2", chars% "CO235C6O2",
  chars% "C716O2", chars% "C922O2", chars% "C614O2", chars% "C511O2", chars% "C620O2", chars% "C87CO3", chars% "C616O2", chars% "C718CO3", chars% "C513O2", chars% "CO25C6CO3", chars% "C627O2", chars% "C727O2", chars% "C511CO3", chars% "C517CO3", chars% "C517O2", chars% "C628O2"]

def peroxyRadicals39 : List Str := [
  chars% "C824O2", chars% "C1211CO3", chars% "C133O2", chars% "C830O2", chars% "C128O2", chars% "HO24C4CO3", chars% "C613O2", chars% "CO2OH3MCO3", chars% "C812O2", chars% "C721CO3", chars% "C721O2", chars% "H3C2C4CO3", chars% "C87O2", chars% "C718O2", chars% "C514O2", chars% "C820O2", chars% "C518CO3", chars% "NC623O2", chars% "C623O2", chars% "C825O2", chars% "C731O2", chars% "C732CO3", chars% "C1012O2", chars% "C1211O2", chars% "C139O2", chars% "C1014O2", chars% "C736O2", chars% "C118O2", chars% "C928CO3", chars% "C630O2"]

def peroxyRadicals40 : List Str := [
  chars% "C1215O2", chars% "EMALANHYO2", chars% "PMALANHYO2", chars% "IPMALNHYO2", chars% "C312COCO3", chars% "CHOCOCH2O2", chars% "NC72O2", chars% "C621O2", chars% "C515CO3", chars% "C515O2", chars% "C821O2", chars% "HMVKBCO3", chars% "C520O2", chars% "C624CO3", chars% "C732O2", chars% "C829O2", chars% "C134O2", chars% "C827CO3", chars% "C522CO3", chars% "C831O2", chars% "C928O2", chars% "C46CO3", chars% "C930O2", chars% "C813O2", chars% "C722O2",
  chars% "C615CO3", chars% "C617CO3", chars% "C618CO3", chars% "C617O2", chars% "C618O2"]

def peroxyRadicals41 : List Str := [
  chars% "NC730O2", chars% "C730O2", chars% "C624O2", chars% "C733O2", chars% "C1212O2", chars% "C827O2", chars% "C1310O2", chars% "NC61CO3", chars% "C615O2", chars% "C519CO3", chars% "C629O2", chars% "C734O2", chars% "C521O2", chars% "C135O2", chars% "COO2C4CO3", chars% "COO2C4O2", chars% "C929O2", chars% "C516O2", chars% "C44O2", chars% "H1C23C4CO3", chars% "H1C23C4O2", chars% "CO1M22CO3", chars% "C519O2", chars% "C625O2", chars% "C1213O2", chars% "COO2C3CO3", chars% "C828CO3", chars% "C828O2"]

/-- The radicals that contribute to the total. -/
def peroxyRadicals : List Str :=
  peroxyRadicals1 ++ peroxyRadicals2 ++ peroxyRadicals3 ++ peroxyRadicals4 ++ peroxyRadicals5 ++
  peroxyRadicals6 ++ peroxyRadicals7 ++ peroxyRadicals8 ++ peroxyRadicals9 ++ peroxyRadicals10
  ++ peroxyRadicals11 ++ peroxyRadicals12 ++ peroxyRadicals13 ++ peroxyRadicals14 ++
  peroxyRadicals15 ++ peroxyRadicals16 ++ peroxyRadicals17 ++ peroxyRadicals18 ++
  peroxyRadicals19 ++ peroxyRadicals20 ++ peroxyRadicals21 ++ peroxyRadicals22 ++
  peroxyRadicals23 ++ peroxyRadicals24 ++ peroxyRadicals25 ++ peroxyRadicals26 ++
  peroxyRadicals27 ++ peroxyRadicals28 ++ peroxyRadicals29 ++ peroxyRadicals30 ++
  peroxyRadicals31 ++ peroxyRadicals32 ++ peroxyRadicals33 ++ peroxyRadicals34 ++
  peroxyRadicals35 ++ peroxyRadicals36 ++ peroxyRadicals37 ++ peroxyRadicals38 ++
  peroxyRadicals39 ++ peroxyRadicals40 ++ peroxyRadicals41

end Spec

end PyBox
