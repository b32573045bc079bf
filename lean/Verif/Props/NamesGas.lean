import Verif.Props.Names

/-!
# C87: names in the gas routines
-/

namespace PyBox

open Spec Ft

theorem Inside.numeral {D : List Str} {s : Str} {q : ℚ} (h : Numeral s q) :
    ∀ m, Quiet m → Inner D (given m s) ∧ after m s = .number := by
  have dig : ∀ {s : Str}, Digits s → ∀ m, Quiet m → given m s = [] ∧ after m s = .number := by
    intro s h m hm
    have hf : m.free = true ∧ m ≠ .comment := by rcases hm with rfl | rfl <;> exact ⟨rfl, by simp⟩
    have := digits_read hf.1 h.1 (Rl.digits_isDigit h)
    rwa [if_neg hf.2] at this
  have expo : ∀ {s x : Str} (c : Char), c = '+' ∨ c = '-' → Digits x →
      (∀ m, Quiet m → Inner D (given m s) ∧ after m s = .number) →
      ∀ m, Quiet m → Inner D (given m (s ++ 'e' :: c :: x)) ∧ after m (s ++ 'e' :: c :: x) = .number := by
    intro s x c hc hx ih m hm
    obtain ⟨h1, h2⟩ := ih m hm
    obtain ⟨h3, h4⟩ := dig hx .blank (.inl rfl)
    have e : given .number ('e' :: c :: x) = .sym c :: given .blank x ∧
        after .number ('e' :: c :: x) = after .blank x := by
      rcases hc with rfl | rfl <;> exact ⟨rfl, rfl⟩
    rw [given_append, after_append, h2, e.1, e.2, h3, h4]
    refine ⟨h1.append (.sym ?_ .nil), rfl⟩
    rcases hc with rfl | rfl <;> decide
  induction h with
  | whole hw => intro m hm; rw [(dig hw m hm).1]; exact ⟨.nil, (dig hw m hm).2⟩
  | @point w f hw hf =>
    intro m hm
    obtain ⟨h1, h2⟩ := dig hw m hm
    obtain ⟨h3, h4⟩ := dig hf .number (.inr rfl)
    have e : given .number ('.' :: f) = given .number f ∧ after .number ('.' :: f) = after .number f := ⟨rfl, rfl⟩
    rw [given_append, after_append, h1, h2, e.1, e.2, h3, h4]
    exact ⟨.nil, rfl⟩
  | big hs he hx ih => exact expo '+' (.inl rfl) hx ih
  | small hs he hx ih => exact expo '-' (.inr rfl) hx ih

theorem Inside.of_numeral {D : List Str} {s : Str} {q : ℚ} (h : Numeral s q) : Inside D s :=
  fun m hm => ⟨(Inside.numeral h m hm).1, .inr (Inside.numeral (D := D) h m hm).2⟩

/-- An array element. -/
theorem Inside.element {D : List Str} {c : Char} {w place : Str} (hc : c.isAlpha = true)
    (hw : ∀ x ∈ w, wordChar x = true ∧ x ≠ '\n' ∧ x ≠ '!') (hD : lowChar c :: w.map lowChar ∈ D)
    (hp : Inside D place) : Inside D (PyBox.element .fortran (c :: w) place) := by
  have e : PyBox.element .fortran (c :: w) place = (c :: w ++ ['(']) ++ place ++ [')'] := by
    simp [PyBox.element, Rl.openOf, Rl.closeOf, Lang.backend]
  rw [e]
  exact ((Inside.opened hc hw hD).append hp).append (.sign (by decide) (by decide) (by decide) (by decide))

theorem Inside.nat {D : List Str} (n : ℕ) : Inside D (PyBox.digits n) := .digits (digits_ne_nil n) (digits_chars n)

theorem Inside.operand {D : List Str} {num : ℚ → Str} {w : ℚ → ℚ} {f : Fac} (ha : ∀ a ∈ f.arrays, a ∈ D)
    (hn : ∀ q ∈ f.numbers, Numeral (num q) (w q)) : Inside D (f.text .fortran num) := by
  cases f with
  | y i => exact .element (by decide) (by simp) (ha ['y'] (by simp [Fac.arrays])) (.nat i)
  | r i => exact .element (by decide) (by simp) (ha ['r'] (by simp [Fac.arrays])) (.nat i)
  | ypow i s =>
    refine ((Inside.element (by decide) (by simp) (ha ['y'] (by simp [Fac.arrays])) (.nat i)).append ?_).append
      (.of_numeral (hn s (by simp [Fac.numbers])))
    exact (Inside.sign (c := '*') (by decide) (by decide) (by decide) (by decide)).append
      (.sign (c := '*') (by decide) (by decide) (by decide) (by decide))
  | num q => exact .of_numeral (hn q (by simp [Fac.numbers]))

theorem Inside.token {D : List Str} {num : ℚ → Str} {w : ℚ → ℚ} {t : Tok} (ha : ∀ a ∈ t.arrays, a ∈ D)
    (hn : ∀ q ∈ t.numbers, Numeral (num q) (w q)) : Inside D (t.text .fortran num) := by
  cases t with
  | fac f => exact .operand ha hn
  | mul => exact .sign (by decide) (by decide) (by decide) (by decide)
  | plus => exact .sign (by decide) (by decide) (by decide) (by decide)
  | minus => exact .sign (by decide) (by decide) (by decide) (by decide)
  | cont =>
    rintro m (rfl | rfl)
    · exact ⟨.cont .nil, .inl rfl⟩
    · exact ⟨.cont .nil, .inl rfl⟩

/-- A line of a statement. -/
theorem Inside.complete {D : List Str} {a : Str} (h : Inside D a) :
    ∃ B, Complete (a ++ ['\n']) B ∧ ∀ s ∈ B, ∀ w ∈ namesOf s, w ∈ D := by
  obtain ⟨h1, h2⟩ := h .blank (.inl rfl)
  obtain ⟨s, hs, hD⟩ := h1.cut
  refine ⟨[s].filter (fun s => !s.isEmpty), fun y => ?_, fun t ht => ?_⟩
  · unfold fortranStatements cutAll
    rw [List.append_assoc, List.singleton_append, lexemes_line, lexemes_eq .blank a]
    have : (after .blank a).flush = [] := by rcases h2 with h | h <;> rw [h] <;> rfl
    rw [this, List.append_nil, hs, ← List.filter_append]
    rfl
  · obtain rfl := List.mem_singleton.1 (List.mem_filter.1 ht).1
    exact hD

/-- What `L` writes in its loop. -/
structure GasLayout (κ : Type) [Place κ] (L : PyBox.Layout) (D inputs : List Str) : Prop where
  lang : L.lang = .fortran
  eol : L.eol = ['\n'] ∨ L.eol = [' ', '\n']
  array : ∃ c w, L.array = c :: w ∧ c.isAlpha = true ∧ (∀ x ∈ w, wordChar x = true ∧ x ≠ '\n' ∧ x ≠ '!') ∧
    lowChar c :: w.map lowChar ∈ D
  place : ∀ k : κ, Inside D (Place.text k)
  omp : ∀ d : Omp, Complete (d.text L.shared) []
  inputs : ∀ a ∈ inputs, a ∈ D

theorem Line.complete {κ : Type} [Place κ] {L : PyBox.Layout} {D inputs : List Str} (hL : GasLayout κ L D inputs)
    {num : ℚ → Str} {w : ℚ → ℚ} {l : Line κ} (hl : LineGood .fortran inputs (fun q => Numeral (num q) (w q)) l) :
    ∃ B, Complete (l.text L num) B ∧ ∀ s ∈ B, ∀ w ∈ namesOf s, w ∈ D := by
  have ended : ∀ {a : Str}, Inside D a → ∃ B, Complete (a ++ L.eol) B ∧ ∀ s ∈ B, ∀ w ∈ namesOf s, w ∈ D := by
    intro a ha
    rcases hL.eol with e | e
    · rw [e]; exact ha.complete
    · rw [e]
      have := (ha.append (.sign (c := ' ') (by decide) (by decide) (by decide) (by decide))).complete
      rwa [List.append_assoc] at this
  cases l with
  | blank => exact ended .nil
  | omp d => exact ⟨[], hL.omp d, by simp⟩
  | asg k ts =>
    obtain ⟨c, v, e, hc, hv, hD⟩ := hL.array
    refine ended (a := "    ".toList ++ element L.lang L.array (Place.text k) ++ '=' :: rhsText L.lang num ts) ?_
    rw [hL.lang, e]
    have sp : Inside D [' '] := .sign (by decide) (by decide) (by decide) (by decide)
    refine (((sp.append (sp.append (sp.append sp))).append (.element hc hv hD (hL.place k)))).append ?_
    refine (Inside.sign (c := '=') (by decide) (by decide) (by decide) (by decide)).append ?_
    refine .flatten fun s hs => ?_
    obtain ⟨t, ht, rfl⟩ := List.mem_map.1 hs
    exact .token (fun a ha => hL.inputs a (hl.1.2.2 a (List.mem_flatMap.2 ⟨t, ht, ha⟩)))
      (fun q hq => hl.2 q (List.mem_flatMap.2 ⟨t, ht, hq⟩))

/-- Several lines. -/
theorem lines_complete {κ : Type} [Place κ] {L : PyBox.Layout} {D inputs : List Str} (hL : GasLayout κ L D inputs)
    {num : ℚ → Str} {w : ℚ → ℚ} {p : List (Line κ)}
    (hp : ∀ l ∈ p, LineGood .fortran inputs (fun q => Numeral (num q) (w q)) l) :
    ∃ B, Complete (p.map (Line.text L num)).flatten B ∧ ∀ s ∈ B, ∀ w ∈ namesOf s, w ∈ D := by
  induction p with
  | nil => exact ⟨[], .nil, by simp⟩
  | cons l p ih =>
    obtain ⟨B, h1, h2⟩ := Line.complete hL (hp l (by simp))
    obtain ⟨B', h3, h4⟩ := ih fun l hl => hp l (List.mem_cons_of_mem _ hl)
    exact ⟨B ++ B', h1.append h3, fun s hs => (List.mem_append.1 hs).elim (h2 s) (h4 s)⟩

/-- A file with numbers of species and reactions in its head. -/
theorem file_names {κ : Type} [Place κ] {L : PyBox.Layout} {inputs : List Str} {head : List Piece} {name : Str}
    {args : List Str} (hL : GasLayout κ L (declaredIn (fortranStatements (lineText (fun _ => 0) head))) inputs)
    (htop : Complete L.top.flatten []) (n m : ℕ)
    (hhead : (L.head (digits n) (digits m)).flatten = lineText (fun h => if h = .species then n else m) head)
    (hfree : holesFree .blank head = true) (hcomp : completeCheck (lineText (fun _ => 0) head) = true)
    (hfoot : completeCheck L.foot.flatten = true)
    (hcheck : fileCheck name args (fortranStatements (lineText (fun _ => 0) head))
      (fortranStatements L.foot.flatten) = true)
    {num : ℚ → Str} {w : ℚ → ℚ} {date : Str} (hd : '\n' ∉ date) {p : List (Line κ)}
    (hp : ∀ l ∈ p, LineGood .fortran inputs (fun q => Numeral (num q) (w q)) l) :
    NamesDeclared name args (fileText L num date n m p) := by
  obtain ⟨B, h1, h2⟩ := lines_complete hL hp
  have hc : Complete (createdAt L.lang date) [] := by
    rw [hL.lang]
    have e : createdAt .fortran date = '!' :: ((chars% " File created at ") ++ date ++ [' ']) ++ ['\n'] := by
      show _ ++ date ++ [' ', '\n'] = _
      simp only [List.cons_append, List.append_assoc]
      rfl
    rw [e]
    refine Complete.comment ?_
    simp only [List.mem_append, not_or]
    exact ⟨⟨by decide, hd⟩, by decide⟩
  have h := ((((htop.append hc).append (Complete.of_pieces (fun h => if h = .species then n else m) hfree hcomp)).append
    h1).append (Complete.of_check hfoot))
  rw [← hhead] at h
  exact NamesDeclared.of_check h.statements hcheck fun s hs w hw => .inr (h2 s hs w hw)

theorem Place.nat_reads {D : List Str} (k : ℕ) : Inside D (Place.text k) := .nat k

theorem Place.pair_reads {D : List Str} (k : ℕ × ℕ) : Inside D (Place.text k) :=
  (Inside.nat k.1).append ((Inside.sign (c := ',') (by decide) (by decide) (by decide) (by decide)).append (.nat k.2))

/-- Text that only has comments. -/
theorem Complete.of_none {t : Str} (h : (completeCheck t && decide (fortranStatements t = [])) = true) :
    Complete t [] := by
  rw [Bool.and_eq_true, decide_eq_true_eq] at h
  have := Complete.of_check h.1
  rwa [h.2] at this

/-- Lines 2313–2322. -/
def reactantsHead : List Piece := [
  .txt (chars% "\nsubroutine reactants(y,reactants_conc)\n    implicit none \n"),
  .txt (chars% "    ! Calculate reactant and stochiometric contribution for each reaction\n"),
  .txt (chars% "    REAL(8), intent(in), dimension("), .hole .species,
  .txt (chars% ") :: y \n    !f2py intent(in) :: y \n    REAL(8), intent(out), dimension("), .hole .bins,
  .txt (chars% ") :: reactants_conc \n    !f2py intent(out) :: reactants_conc \n")]

/-- Lines 2549–2576. -/
def lossGainHead : List Piece := [
  .txt (chars% "\n\nsubroutine loss_gain(r,loss_gain_array)\n    ! Calculate loss and gain for each specie\n"),
  .txt (chars% "    implicit none \n    REAL(8), intent(in), dimension("), .hole .bins,
  .txt (chars% ") :: r \n    !f2py intent(in) :: r \n    REAL(8), intent(out), dimension("), .hole .species,
  .txt (chars% ") :: loss_gain_array \n    !f2py intent(out) :: loss_gain_array \n    !Set values to zero \n"),
  .txt (chars% "    loss_gain_array(:)=0.0D0 \n")]

/-- Lines 2700–2717. -/
def jacobianHead : List Piece := [
  .txt (chars% "\n\nsubroutine jacobian(r,y,dy_dy)\n    ! Calculate loss and gain for each specie\n"),
  .txt (chars% "    implicit none \n    REAL(8), intent(in), dimension("), .hole .bins,
  .txt (chars% ") :: r \n    !f2py intent(in) :: r \n    REAL(8), intent(in), dimension("), .hole .species,
  .txt (chars% ") :: y \n    !f2py intent(in) :: loss_gain_array \n    REAL(8), intent(out), dimension("), .hole .species,
  .txt (chars% ","), .hole .species,
  .txt (chars% ") :: dy_dy \n    !f2py intent(out) :: dy_dy \n    dy_dy(:,:)=0.0D0 \n")]

/-- **C87**, `Reactants_conc.f90`. -/
theorem C87_reactants {t : Tables} {num : ℚ → Str} {w : ℚ → ℚ} (hw : Prints num w t) {q : Nat}
    {cores : Option Nat} {P : List (Line Nat)} (hP : writeReactantsF t.gen q cores = .ok P) {date : Str}
    (hd : '\n' ∉ date) (n m : Nat) :
    NamesDeclared (chars% "reactants") [chars% "y", chars% "reactants_conc"]
      (fileText reactantsFLayout num date n m P) := by
  refine file_names (inputs := [['y']]) (head := reactantsHead) ⟨rfl, .inl rfl, ?_, Place.nat_reads, ?_, by decide +kernel⟩ ?_ n m ?_ (by decide +kernel)
    (by decide +kernel) (by decide +kernel) (by decide +kernel) hd (writeReactantsF_lines hw.coefs hP)
  · exact ⟨'r', chars% "eactants_conc", rfl, by decide, by decide, by decide +kernel⟩
  · intro d; cases d <;> exact Complete.of_none (by decide +kernel)
  · exact Complete.of_none (by decide +kernel)
  · simp only [reactantsFLayout, Rl.reactantsFHead, reactantsHead, lineText, List.flatMap_cons, List.flatMap_nil, Piece.text,
      List.flatten_cons, List.flatten_nil, List.append_assoc, List.append_nil]
    rfl

/-- **C87**, `Loss_Gain.f90`. -/
theorem C87_tendency {t : Tables} {num : ℚ → Str} {w : ℚ → ℚ} (hw : Prints num w t) (k : Nat)
    (cores : Option Nat) {date : Str} (hd : '\n' ∉ date) (n m : Nat) :
    NamesDeclared (chars% "loss_gain") [chars% "r", chars% "loss_gain_array"]
      (fileText lossGainFLayout num date n m (writeLossGainF t.gen k cores)) := by
  refine file_names (inputs := [['r']]) (head := lossGainHead) ⟨rfl, .inr rfl, ?_, Place.nat_reads, ?_, by decide +kernel⟩ ?_ n m ?_ (by decide +kernel)
    (by decide +kernel) (by decide +kernel) (by decide +kernel) hd (writeLossGainF_lines hw.coefs k cores)
  · exact ⟨'l', chars% "oss_gain_array", rfl, by decide, by decide, by decide +kernel⟩
  · intro d; cases d <;> exact Complete.of_none (by decide +kernel)
  · exact Complete.of_none (by decide +kernel)
  · simp only [lossGainFLayout, Rl.lossGainFHead, lossGainHead, lineText, List.flatMap_cons, List.flatMap_nil, Piece.text,
      List.flatten_cons, List.flatten_nil, List.append_assoc, List.append_nil]
    rfl

/-- **C87**, `Jacobian.f90`. -/
theorem C87_jacobian {t : Tables} {num : ℚ → Str} {w : ℚ → ℚ} (hw : Prints num w t) {ord : SetOrder}
    {k : Nat} {cores : Option Nat} {P : List (Line (Nat × Nat))} (hP : writeJacobianF t.gen ord k cores = .ok P)
    {date : Str} (hd : '\n' ∉ date) (n m : Nat) :
    NamesDeclared (chars% "jacobian") [chars% "r", chars% "y", chars% "dy_dy"]
      (fileText jacobianFLayout num date n m P) := by
  refine file_names (inputs := [['r'], ['y']]) (head := jacobianHead) ⟨rfl, .inr rfl, ?_, Place.pair_reads, ?_, by decide +kernel⟩ ?_ n m ?_ (by decide +kernel)
    (by decide +kernel) (by decide +kernel) (by decide +kernel) hd (writeJacobianF_lines hw.coefs hP)
  · exact ⟨'d', chars% "y_dy", rfl, by decide, by decide, by decide +kernel⟩
  · intro d; cases d <;> exact Complete.of_none (by decide +kernel)
  · exact Complete.of_none (by decide +kernel)
  · simp only [jacobianFLayout, Rl.jacobianFHead, jacobianHead, lineText, List.flatMap_cons, List.flatMap_nil, Piece.text,
      List.flatten_cons, List.flatten_nil, List.append_assoc, List.append_nil]
    rfl

end PyBox
