import Verif.Props.NamesGas
import Verif.Rate.File
import Verif.Props.LineWidth

/-!
# C87: names in the Fortran rate file
-/

namespace PyBox

open Spec Ft

/-- The names that the Fortran rate file declares, `/repo/Parse_eqn_file.py` lines 1312–1372, without case. -/
def Spec.rateFileNames : List Str := [
  chars% "ro2", chars% "h2o", chars% "temp", chars% "rate_values", chars% "krono2", chars% "kro2ho2",
  chars% "kapho2", chars% "kapno", chars% "kro2no3", chars% "kno3al", chars% "kdec", chars% "krosec",
  chars% "kalkoxy", chars% "kalkpxy", chars% "kc0", chars% "kci", chars% "krc", chars% "nc", chars% "fc",
  chars% "fcc", chars% "kfpan", chars% "kd0", chars% "kdi", chars% "krd", chars% "fcd", chars% "ncd", chars% "fd",
  chars% "kbpan", chars% "k10", chars% "k1i", chars% "kr1", chars% "fc1", chars% "nc1", chars% "f1", chars% "kmt01",
  chars% "k20", chars% "k2i", chars% "kr2", chars% "fc2", chars% "nc2", chars% "f2", chars% "kmt02", chars% "k30",
  chars% "k3i", chars% "kr3", chars% "fc3", chars% "nc3", chars% "f3", chars% "kmt03", chars% "k40", chars% "k4i",
  chars% "kr4", chars% "fc4", chars% "nc4", chars% "f4", chars% "kmt04", chars% "kmt05", chars% "kmt06",
  chars% "k70", chars% "k7i", chars% "kr7", chars% "fc7", chars% "nc7", chars% "f7", chars% "kmt07", chars% "k80",
  chars% "k8i", chars% "kr8", chars% "fc8", chars% "nc8", chars% "f8", chars% "kmt08", chars% "k90", chars% "k9i",
  chars% "kr9", chars% "fc9", chars% "nc9", chars% "f9", chars% "kmt09", chars% "k100", chars% "k10i",
  chars% "kr10", chars% "fc10", chars% "nc10", chars% "f10", chars% "kmt10", chars% "k1", chars% "k3", chars% "k4",
  chars% "k2", chars% "kmt11", chars% "k120", chars% "k12i", chars% "kr12", chars% "fc12", chars% "nc12",
  chars% "f12", chars% "kmt12", chars% "k130", chars% "k13i", chars% "kr13", chars% "fc13", chars% "nc13",
  chars% "f13", chars% "kmt13", chars% "k140", chars% "k14i", chars% "kr14", chars% "fc14", chars% "nc14",
  chars% "f14", chars% "kmt14", chars% "k150", chars% "k15i", chars% "kr15", chars% "fc15", chars% "nc15",
  chars% "f15", chars% "kmt15", chars% "k160", chars% "k16i", chars% "kr16", chars% "fc16", chars% "nc16",
  chars% "f16", chars% "kmt16", chars% "k170", chars% "k17i", chars% "kr17", chars% "fc17", chars% "nc17",
  chars% "f17", chars% "kmt17", chars% "kro2no", chars% "k14isom1", chars% "kroprim", chars% "kch3o2",
  chars% "k298ch3o2", chars% "kmt18", chars% "kppn0", chars% "kppni", chars% "krppn", chars% "fcppn",
  chars% "ncppn", chars% "fppn", chars% "kbppn", chars% "b0", chars% "b1", chars% "b2", chars% "b3", chars% "b4",
  chars% "b5", chars% "b6", chars% "currentdayofyear", chars% "c0", chars% "c1", chars% "c2", chars% "c3",
  chars% "c4", chars% "currentfracday", chars% "currentfrachour", chars% "eqtime", chars% "latitude",
  chars% "longitude", chars% "cosx_threshold", chars% "ttime", chars% "theta", chars% "secx", chars% "cosx",
  chars% "lat", chars% "pi", chars% "radian", chars% "dec", chars% "lha", chars% "sinld", chars% "cosld",
  chars% "j", chars% "m", chars% "n2", chars% "o2"]

/-- The arguments of `evaluate_rates`, line 1308. -/
def rateArgs : List Str := [chars% "ro2", chars% "h2o", chars% "temp", chars% "ttime", chars% "rate_values"]

/-- Lines 1308–1314. -/
def rateHeading (number : Str) : Str :=
  (chars% "subroutine evaluate_rates(RO2,H2O,TEMP,ttime,rate_values)\n") ++ (chars% "    implicit none \n") ++
    (chars% "    REAL(8), intent(in) :: RO2,H2O,TEMP \n") ++ (chars% "    !f2py intent(in) :: RO2,H2O,TEMP \n") ++
    (chars% "    REAL(8), intent(out), dimension(") ++ number ++ (chars% ") :: rate_values \n")

/-- The whole of `Rate_coefficients.f90`: lines 1308–1768.  The first entry of `fortranWrites` is line 1312, which is
before lines 1313–1314. -/
def rateFileText (d : Dict ℕ Str) (cores : Option ℕ) : Str :=
  rateHeading (digits d.length) ++ (Rl.fortranWrites.drop 1).flatten ++ writeRatesF d cores

/-- The same before the rates, with a hole for the number of rates. -/
def ratePieces : List Piece := [
  .txt (chars% "subroutine evaluate_rates(RO2,H2O,TEMP,ttime,rate_values)\n"), .txt (chars% "    implicit none \n"),
  .txt (chars% "    REAL(8), intent(in) :: RO2,H2O,TEMP \n"), .txt (chars% "    !f2py intent(in) :: RO2,H2O,TEMP \n"),
  .txt (chars% "    REAL(8), intent(out), dimension("), .hole .total, .txt (chars% ") :: rate_values \n"),
  .txt (Rl.fortranWrites.drop 1).flatten]

def rateStatements : List (List Lexeme) := fortranStatements (lineText (fun _ => 0) ratePieces)

theorem rate_check : (holesFree .blank ratePieces && completeCheck (lineText (fun _ => 0) ratePieces) &&
    fileCheck (chars% "evaluate_rates") rateArgs rateStatements [[.name (chars% "end"), .name (chars% "subroutine")]] &&
    decide (declaredIn rateStatements = rateFileNames) && decide (2 ≤ rateStatements.length) &&
    rateStatements.all (fun s => match declaration s with
      | some p => p.1.all (fun w => decide (w ∈ rateFileNames))
      | none => true)) = true := by decide +kernel

theorem cut_single {l : List Lexeme} (h : Lexeme.newline ∉ l) : cut l = [l] := by
  induction l with
  | nil => rfl
  | cons x l ih =>
    obtain ⟨s, r, e1, e2⟩ := cut_cons (x := x) (l := l) (fun e => h (by simp [e]))
      (fun r _ e => h (by simp [e]))
    rw [ih fun e => h (List.mem_cons_of_mem _ e)] at e1
    obtain ⟨rfl, rfl⟩ := List.cons.inj e1
    exact e2

theorem flush_name {m : Mode} {x : Lexeme} (h : x ∈ m.flush) : ∃ w, x = .name w := by
  cases m with
  | name w => exact ⟨w, List.mem_singleton.1 h⟩
  | _ => cases h

/-- Signs and ends of lines are characters of the text. -/
theorem lexemes_chars (m : Mode) (s : Str) :
    (Lexeme.newline ∈ lexemes m s → '\n' ∈ s) ∧ ∀ c, Lexeme.sym c ∈ lexemes m s → c ∈ s := by
  have fl : ∀ m : Mode, Lexeme.newline ∉ m.flush ∧ ∀ c, Lexeme.sym c ∉ m.flush := by
    intro m
    refine ⟨fun h => ?_, fun c h => ?_⟩
    · obtain ⟨w, hw⟩ := flush_name h; cases hw
    · obtain ⟨w, hw⟩ := flush_name h; cases hw
  induction s generalizing m with
  | nil => exact ⟨fun h => absurd h (fl m).1, fun c h => absurd h ((fl m).2 c)⟩
  | cons c s ih =>
    have go : ∀ m', (Lexeme.newline ∈ lexemes m' s → '\n' ∈ c :: s) ∧
        ∀ d, Lexeme.sym d ∈ lexemes m' s → d ∈ c :: s :=
      fun m' => ⟨fun h => List.mem_cons_of_mem _ ((ih m').1 h), fun d h => List.mem_cons_of_mem _ ((ih m').2 d h)⟩
    rw [lexemes]
    split
    · rename_i hc
      refine ⟨fun _ => by simp [hc], fun d h => ?_⟩
      rcases List.mem_append.1 h with h | h
      · exact absurd h ((fl m).2 d)
      · rcases List.mem_cons.1 h with h | h
        · cases h
        · exact (go _).2 d h
    split
    · exact go _
    split
    · refine ⟨fun h => ?_, fun d h => ?_⟩
      · exact (List.mem_append.1 h).elim (fun h => absurd h (fl m).1) (go _).1
      · exact (List.mem_append.1 h).elim (fun h => absurd h ((fl m).2 d)) ((go _).2 d)
    split
    · exact go _
    split
    · refine ⟨fun h => ?_, fun d h => ?_⟩
      · exact (List.mem_append.1 h).elim (fun h => absurd h (fl m).1) (go _).1
      · exact (List.mem_append.1 h).elim (fun h => absurd h ((fl m).2 d)) ((go _).2 d)
    · refine ⟨fun h => ?_, fun d h => ?_⟩
      · rcases List.mem_append.1 h with h | h
        · exact absurd h (fl m).1
        · rcases List.mem_cons.1 h with h | h
          · cases h
          · exact (go _).1 h
      · rcases List.mem_append.1 h with h | h
        · exact absurd h ((fl m).2 d)
        · rcases List.mem_cons.1 h with h | h
          · cases h; simp
          · exact (go _).2 d h

/-- The statement of a rate. -/
def rateStatement (t : Str) : List Lexeme :=
  .name (chars% "rate_values") :: .sym '(' :: .sym ')' :: .sym '=' :: lexemes .blank t

theorem rateLine_complete {k : ℕ} {t : Str} (h1 : '\n' ∉ t) (h2 : '&' ∉ t) :
    Complete (rateLineF (k, t)) [rateStatement t] := by
  have hl : lexemes .blank ((chars% "    rate_values(") ++ (digits (k + 1) ++ ((chars% ") =") ++ (t ++ [' '])))) =
      rateStatement t := by
    obtain ⟨e1, e2⟩ := digits_read (m := .blank) rfl (digits_ne_nil (k + 1)) (digits_chars (k + 1))
    rw [lexemes_append, show after .blank (chars% "    rate_values(") = .blank by decide, lexemes_append, e1, e2,
      lexemes_append, lexemes_append,
      show given .blank (chars% "    rate_values(") = [.name (chars% "rate_values"), .sym '('] by decide +kernel]
    rw [if_neg (by simp), show given .number (chars% ") =") = [.sym ')', .sym '='] by decide,
      show after .number (chars% ") =") = .blank by decide]
    have : lexemes (after .blank t) [' '] = (after .blank t).flush := by
      cases after .blank t <;> rfl
    rw [this, ← lexemes_eq]
    rfl
  have e : rateLineF (k, t) = ((chars% "    rate_values(") ++ (digits (k + 1) ++ ((chars% ") =") ++ (t ++ [' '])))) ++ ['\n'] := by
    show _ ++ digits (k + 1) ++ _ ++ t ++ [' ', '\n'] = _
    simp only [List.append_assoc]
    rfl
  have hn : Lexeme.newline ∉ rateStatement t := by
    simp only [rateStatement, List.mem_cons, reduceCtorEq, false_or]
    exact fun h => h1 ((lexemes_chars .blank t).1 h)
  have ha : Lexeme.sym '&' ∉ rateStatement t := by
    simp only [rateStatement, List.mem_cons, reduceCtorEq, false_or, Lexeme.sym.injEq]
    rintro (h | h | h | h)
    · exact absurd h (by decide)
    · exact absurd h (by decide)
    · exact absurd h (by decide)
    · exact h2 ((lexemes_chars .blank t).2 _ h)
  intro y
  rw [e, List.append_assoc, List.singleton_append]
  unfold fortranStatements cutAll
  rw [lexemes_line, hl, cut_newline (fun h => ha (List.mem_of_getLast? h)), cut_single hn, List.filter_append]
  rfl

theorem rates_complete {d : Dict ℕ Str} (hd : ∀ p ∈ d, '\n' ∉ p.2 ∧ '&' ∉ p.2) (cores : Option ℕ) :
    Complete (writeRatesF d cores) (d.map (fun p => rateStatement p.2) ++
      [[.name (chars% "end"), .name (chars% "subroutine")]]) := by
  have hend : Complete "\nend subroutine\n".toList [[.name (chars% "end"), .name (chars% "subroutine")]] := by
    have := Complete.of_check (t := "\nend subroutine\n".toList) (by decide +kernel)
    rwa [show fortranStatements "\nend subroutine\n".toList =
      [[.name (chars% "end"), .name (chars% "subroutine")]] by decide +kernel] at this
  unfold writeRatesF
  refine Complete.append ?_ hend
  cases cores with
  | none =>
    rw [← List.flatMap_def, show d.map (fun p => rateStatement p.2) = d.flatMap (fun p => [rateStatement p.2]) from
      List.map_eq_flatMap]
    exact Complete.flatMap fun p hp => rateLine_complete (hd p hp).1 (hd p hp).2
  | some c =>
    have homp : ∀ k, Complete (ompTextBefore (breakList d.length c) k) [] := by
      intro k
      unfold ompTextBefore
      refine Complete.append (B := []) (B' := []) ?_ ?_
      · split
        · exact Complete.of_none (by decide +kernel)
        · exact .nil
      · split
        · exact Complete.of_none (by decide +kernel)
        · exact .nil
    have key : Complete (d.zipIdx.flatMap (fun x => ompTextBefore (breakList d.length c) x.2 ++ rateLineF x.1))
        (d.zipIdx.flatMap (fun x => [] ++ [rateStatement x.1.2])) :=
      Complete.flatMap fun x hx => (homp x.2).append
        (rateLine_complete (k := x.1.1) (hd x.1 (List.fst_mem_of_mem_zipIdx hx)).1 (hd x.1 (List.fst_mem_of_mem_zipIdx hx)).2)
    have e : d.zipIdx.flatMap (fun x => [] ++ [rateStatement x.1.2]) = d.map (fun p => rateStatement p.2) ++ [] := by
      have : d = d.zipIdx.map Prod.fst := by rw [List.zipIdx_map_fst]
      conv_rhs => rw [this]
      rw [List.append_nil, List.map_map]
      simp only [List.nil_append]
      exact List.map_eq_flatMap.symm
    rw [e, List.flatMap_def] at key
    have := key.append (Complete.of_none (t := "!$OMP END SINGLE NOWAIT \n!$OMP END PARALLEL \n".toList) (by decide +kernel))
    simpa using this

/-- **C87**, `Rate_coefficients.f90`: the file declares the names it uses if and only if every name in a rate text,
without case, is one of those that the file declares or an intrinsic function. -/
theorem C87_rates {d : Dict ℕ Str} (hd : ∀ p ∈ d, '\n' ∉ p.2 ∧ '&' ∉ p.2) (cores : Option ℕ) :
    NamesDeclared (chars% "evaluate_rates") rateArgs (rateFileText d cores) ↔
      ∀ p ∈ d, ∀ w ∈ namesIn p.2, w ∈ reserved ∨ w ∈ rateFileNames := by
  have hc := rate_check
  simp only [Bool.and_eq_true, decide_eq_true_eq] at hc
  obtain ⟨⟨⟨⟨⟨c1, c2⟩, c3⟩, c4⟩, c5⟩, c6⟩ := hc
  have hh := Complete.of_pieces (fun _ => d.length) c1 c2
  have e : rateFileText d cores = lineText (fun _ => d.length) ratePieces ++ writeRatesF d cores := by
    unfold rateFileText rateHeading ratePieces lineText
    simp only [List.flatMap_cons, List.flatMap_nil, Piece.text, List.append_assoc, List.append_nil]
  have hs := (hh.append (rates_complete hd cores)).statements
  rw [← e] at hs
  change fortranStatements _ = rateStatements ++ _ at hs
  constructor
  · intro h p hp w hw
    have hm : rateStatement p.2 ∈ (fortranStatements (rateFileText d cores)).drop 2 := by
      rw [hs, List.drop_append_of_le_length c5]
      exact List.mem_append_right _ (List.mem_append_left _ (List.mem_map.2 ⟨p, hp, rfl⟩))
    rcases NamesDeclared.used h hm rfl (w := w) (by
      simp only [rateStatement, namesOf, List.filterMap_cons]
      exact List.mem_cons_of_mem _ hw) with h | h | ⟨s, h1, q, h2, h3⟩
    · exact .inl h
    · exact absurd h (by simp [rateStatement])
    · rw [hs] at h1
      rcases List.mem_append.1 h1 with h1 | h1
      · have := List.all_eq_true.1 c6 s h1
        rw [h2] at this
        exact .inr (of_decide_eq_true (List.all_eq_true.1 this w h3))
      · rcases List.mem_append.1 h1 with h1 | h1
        · obtain ⟨p', -, rfl⟩ := List.mem_map.1 h1
          exact absurd h2 (by rw [show declaration (rateStatement p'.2) = none from rfl]; simp)
        · obtain rfl := List.mem_singleton.1 h1
          exact absurd h2 (by rw [show declaration _ = none from rfl]; simp)
  · intro h
    rw [← List.append_assoc] at hs
    refine NamesDeclared.of_check hs c3 ?_
    rw [c4]
    intro s hs w hw
    obtain ⟨p, hp, rfl⟩ := List.mem_map.1 hs
    simp only [rateStatement, namesOf, List.filterMap_cons] at hw
    rcases List.mem_cons.1 hw with rfl | hw
    · exact .inr (by decide +kernel)
    · exact h p hp w hw

/-- **C87**, from the mechanism file: `Rate_coefficients.f90` declares the names it uses if and only if the names in
the converted rate texts are among those that PyBox knows. -/
theorem C87_mechanism {text : Str} {m : Mechanism} (h : extractMechanism text = .ok m) {qs : List RawEqn}
    (hq : Reads text m.equations.toNat qs) {times : ℕ}
    (ha : ∀ q ∈ qs, '&' ∉ (Rl.convertOf .fortran)^[times] q.rate) (cores : Option ℕ) :
    NamesDeclared (chars% "evaluate_rates") rateArgs
        (rateFileText ((convertTable (Rl.convertOf .fortran))^[times] m.tables.rate) cores) ↔
      ∀ q ∈ qs, ∀ w ∈ namesIn ((Rl.convertOf .fortran)^[times] q.rate), w ∈ reserved ∨ w ∈ rateFileNames := by
  rw [rate_table h hq, iterate_table]
  rw [C87_rates]
  · constructor
    · intro h q hq
      obtain ⟨i, hi, rfl⟩ := List.mem_iff_getElem.1 hq
      exact h _ (List.mem_mapIdx.2 ⟨i, hi, rfl⟩)
    · intro h p hp
      obtain ⟨i, hi, rfl⟩ := List.mem_mapIdx.1 hp
      exact h _ (List.getElem_mem hi)
  · intro p hp
    have hsp := spaceless_table (rates_spaceless hq) (f := (Rl.convertOf .fortran)^[times])
      (fun s hs => convertOf_spaceless .fortran times s hs) p hp
    obtain ⟨i, hi, rfl⟩ := List.mem_mapIdx.1 hp
    exact ⟨fun hc => absurd (hsp _ hc) (by decide), ha _ (List.getElem_mem hi)⟩

/-! ### Examples -/

/-- Rates of the usual kind. -/
example : NamesDeclared (chars% "evaluate_rates") rateArgs
    (rateFileText [(0, chars% "1.4D-12*EXP(-1310/TEMP)"), (1, chars% "J(4)"), (2, chars% "KMT09*RO2")] (some 2)) :=
  (C87_rates (by decide) _).2 (by decide +kernel)

/-- The rate `KMT` of the sample mechanism is not one of the coefficients in the file. -/
example : ∃ m, extractMechanism sampleText = .ok m ∧ ¬ NamesDeclared (chars% "evaluate_rates") rateArgs
    (rateFileText ((convertTable (Rl.convertOf .fortran))^[2] m.tables.rate) none) := by
  refine ⟨_, sample_parses, fun h => ?_⟩
  have := (C87_mechanism sample_parses sample_reads (by decide +kernel) none).1 h
    { reactants := [(1, "HO2".toList), (1, "HO2".toList)], products := [(1, "H2O2".toList)], rate := "KMT".toList }
    (by simp [sampleReactions]) (chars% "kmt") (by decide +kernel)
  exact absurd this (by decide +kernel)

/-- The gas files of two coupled reactions. -/
example : ∃ P, writeReactantsF (build radicalReactions).gen 2 (some 4) = .ok P ∧
    NamesDeclared (chars% "reactants") [chars% "y", chars% "reactants_conc"]
      (fileText reactantsFLayout shortNum (chars% "2018-01-01 12:00:00") 5 2 P) ∧
    NamesDeclared (chars% "loss_gain") [chars% "r", chars% "loss_gain_array"]
      (fileText lossGainFLayout shortNum (chars% "2018-01-01 12:00:00") 5 2
        (writeLossGainF (build radicalReactions).gen 5 (some 4))) := by
  have hw := shortNum_prints (t := build radicalReactions) (by decide +kernel) (by decide +kernel)
  obtain ⟨P, hP⟩ : ∃ P, writeReactantsF (build radicalReactions).gen 2 (some 4) = .ok P := ⟨_, rfl⟩
  exact ⟨P, hP, C87_reactants hw hP (by decide) 5 2, C87_tendency hw 5 (some 4) (by decide) 5 2⟩

/-- The Jacobian of the same reactions. -/
example : ∃ P, writeJacobianF (build radicalReactions).gen (fun l => l) 5 none = .ok P ∧
    NamesDeclared (chars% "jacobian") [chars% "r", chars% "y", chars% "dy_dy"]
      (fileText jacobianFLayout shortNum [] 5 2 P) := by
  have hw := shortNum_prints (t := build radicalReactions) (by decide +kernel) (by decide +kernel)
  obtain ⟨P, hP⟩ : ∃ P, writeJacobianF (build radicalReactions).gen (fun l => l) 5 none = .ok P := ⟨_, rfl⟩
  exact ⟨P, hP, C87_jacobian hw hP (by decide) 5 2⟩

/-- A partitioning routine for 16 bins, and one of `write_partitioning_section_fortran`. -/
example (L : Aerosol.Layout) :
    NamesDeclared (chars% "dydt_partition") partitionArgs (partText (chars% "2018-01-01 12:00:00") L 100) ∧
    ¬ NamesDeclared (chars% "dydt_partition") partitionArgs (allText (chars% "2018-01-01 12:00:00") 100 16 10) :=
  ⟨C87_partition (by decide) L 100, C87_uncalled (by decide) 100 16 10⟩

end PyBox
