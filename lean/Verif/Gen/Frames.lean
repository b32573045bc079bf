import Verif.Gen.Read

/-!
# The fixed text of the six generated gas routines
-/

namespace PyBox

open Rl

instance (s : Str) : Decidable (NameOk s) := by unfold NameOk; infer_instance

instance (s : Str) : Decidable (EolOk s) := by unfold EolOk; infer_instance

theorem matches_py {L : Layout} {F : Frame} (h1 : L.lang = .python) (h2 : F.lang = .python)
    (h3 : L.array = F.array) (h4 : NameOk F.array) (h5 : EolOk L.eol) (h6 : '\n' ∉ L.shared)
    (h7 : L.top.flatten.getLast? = some '\n') (h8 : preLines .numba L.top.flatten = [])
    (h9 : ∀ n m, L.head n m = L.head [] []) (h10 : (L.head [] []).flatten.getLast? = some '\n')
    (h11 : (preLines .numba (L.head [] []).flatten).all (fun l => (lower l.2).getLast? != some '&') = true)
    (h12 : ∀ n m, preLines .numba (L.head [] []).flatten = F.before n m)
    (h13 : preLines .numba L.foot.flatten = F.after) : Matches L F [] where
  lang := by rw [h1, h2]
  array := h3
  name := h4
  eol := h5
  shared := h6
  topEnds := h7
  top := by rw [h1]; exact h8
  headEnds n m := by rw [h9]; exact h10
  headPlain n m l hl := by
    rw [h1, h9] at hl
    have := List.all_eq_true.1 h11 l hl
    simpa using this
  head n m := by
    rw [h1, h9, List.append_nil]
    exact (List.map_id _).trans (h12 n m)
  foot := by
    rw [h1, code_python]
    exact h13

theorem reactantsPy_matches : Matches reactantsPyLayout reactantsPyFrame [] :=
  matches_py rfl rfl rfl (by decide) (by decide) (by decide) (by decide +kernel) (by decide +kernel)
    (fun _ _ => rfl) (by decide +kernel) (by decide +kernel)
    (fun _ _ => by
      show _ = pyBefore _ _
      decide +kernel) (by decide +kernel)

theorem lossGainPy_matches : Matches lossGainPyLayout lossGainPyFrame [] :=
  matches_py rfl rfl rfl (by decide) (by decide) (by decide) (by decide +kernel) (by decide +kernel)
    (fun _ _ => rfl) (by decide +kernel) (by decide +kernel)
    (fun _ _ => by
      show _ = pyBefore _ _
      decide +kernel) (by decide +kernel)

theorem jacobianPy_matches : Matches jacobianPyLayout jacobianPyFrame [] :=
  matches_py rfl rfl rfl (by decide) (by decide) (by decide) (by decide +kernel) (by decide +kernel)
    (fun _ _ => rfl) (by decide +kernel) (by decide +kernel)
    (fun _ _ => by
      show _ = pyBefore _ _
      decide +kernel) (by decide +kernel)

/-! ### Fortran -/

theorem preLines_flatten (b : Backend) (ws : List Str) (h : ∀ s ∈ ws, s.getLast? = some '\n') :
    preLines b ws.flatten = ws.flatMap (preLines b) := by
  induction ws with
  | nil => exact preLines_nil b
  | cons s ws ih =>
    rw [List.flatten_cons, List.flatMap_cons, preLines_append b (h s (by simp)),
      ih (fun t ht => h t (List.mem_cons_of_mem _ ht))]

/-- A declaration with a printed size. -/
theorem preLines_declaration {pre post dims : Str} {a : Char} {u : Str} (hpre : pre = "    ".toList ++ a :: u)
    {v : Str} {z : Char} (hpost : post = v ++ [z, ' ', '\n']) (ha : isSpace a = false) (hz : isSpace z = false)
    (h1 : '\n' ∉ a :: u) (h2 : '!' ∉ a :: u) (h3 : '\n' ∉ v) (h4 : '!' ∉ v) (h5 : z ≠ '!')
    (hd : ∀ c ∈ dims, isDigit c = true ∨ c = ',') :
    preLines .fortran (pre ++ dims ++ post) = [(4, (a :: u) ++ dims ++ (v ++ [z]))] := by
  subst hpre hpost
  have e : "    ".toList ++ a :: u ++ dims ++ (v ++ [z, ' ', '\n']) =
      "    ".toList ++ (a :: (u ++ dims ++ (v ++ [z]))) ++ [' '] ++ '\n' :: [] := by simp
  have hmem : ∀ c, c ∉ a :: u → c ∉ v → c ≠ z → (isDigit c = false) → c ≠ ',' →
      c ∉ a :: (u ++ dims ++ (v ++ [z])) := by
    intro c g1 g2 g3 g4 g5 hm
    have hm : c ∈ (a :: u) ++ dims ++ (v ++ [z]) := hm
    rcases List.mem_append.1 hm with hm | hm
    · rcases List.mem_append.1 hm with hm | hm
      · exact g1 hm
      · rcases hd c hm with h | h
        · rw [g4] at h; cases h
        · exact g5 h
    · rcases List.mem_append.1 hm with hm | hm
      · exact g2 hm
      · exact g3 (List.mem_singleton.1 hm)
  rw [e, preLines_code .fortran ha hz (by
      rw [show a :: (u ++ dims ++ (v ++ [z])) = ((a :: u) ++ dims ++ v) ++ [z] by simp, List.getLast?_concat])
    (.inr rfl) (hmem _ h1 h3 (by rintro rfl; exact absurd hz (by decide)) (by decide) (by decide))
    (hmem _ h2 h4 (fun h => h5 h.symm) (by decide) (by decide)), preLines_nil]
  rfl

/-- The lines of a list of writes of which some print sizes. -/
theorem head_lines {ws : List Str} {ls : List (Nat × Str)} (h : ws.flatMap (preLines .fortran) = ls)
    (hw : ∀ s ∈ ws, s.getLast? = some '\n') : preLines .fortran ws.flatten = ls :=
  (preLines_flatten .fortran ws hw).trans h

theorem digits_ends (k : Nat) (s t : Str) : (s ++ digits k ++ t ++ ['\n']).getLast? = some '\n' :=
  List.getLast?_concat

theorem digits_dims (k : Nat) : ∀ c ∈ digits k, isDigit c = true ∨ c = ',' := fun c hc => .inl (digits_chars k c hc)

/-- The lines before those that print sizes, and so on. -/
theorem flatMap_cons_eq {s : Str} {ws : List Str} {l ls : List (Nat × Str)} (h : preLines .fortran s = l)
    (hs : ws.flatMap (preLines .fortran) = ls) : (s :: ws).flatMap (preLines .fortran) = l ++ ls := by
  rw [List.flatMap_cons, h, hs]

theorem reactantsF_lines (n m : Nat) : (reactantsFHead (digits n) (digits m)).flatMap (preLines .fortran) =
    [(0, "subroutine reactants(y,reactants_conc)".toList), (4, "implicit none".toList),
      (4, "REAL(8), intent(in), dimension(".toList ++ digits n ++ ") :: y".toList),
      (4, "REAL(8), intent(out), dimension(".toList ++ digits m ++ ") :: reactants_conc".toList)] := by
  unfold reactantsFHead
  refine flatMap_cons_eq (l := []) (by decide) ?_
  refine flatMap_cons_eq (l := [_]) (by decide +kernel) ?_
  refine flatMap_cons_eq (l := [_]) (by decide +kernel) ?_
  refine flatMap_cons_eq (l := []) (by decide +kernel) ?_
  refine flatMap_cons_eq (l := [_]) ?_ ?_
  · exact preLines_declaration (a := 'R') (u := "EAL(8), intent(in), dimension(".toList) (by decide +kernel)
      (v := ") :: ".toList) (z := 'y') (by decide +kernel) (by decide) (by decide) (by decide) (by decide)
      (by decide) (by decide) (by decide) (digits_dims n)
  refine flatMap_cons_eq (l := []) (by decide +kernel) ?_
  refine flatMap_cons_eq (l := [_]) ?_ ?_
  · exact preLines_declaration (a := 'R') (u := "EAL(8), intent(out), dimension(".toList) (by decide +kernel)
      (v := ") :: reactants_con".toList) (z := 'c') (by decide +kernel) (by decide) (by decide) (by decide) (by decide)
      (by decide) (by decide) (by decide) (digits_dims m)
  refine flatMap_cons_eq (l := []) (by decide +kernel) rfl

theorem lossGainF_lines (n m : Nat) : (lossGainFHead (digits n) (digits m)).flatMap (preLines .fortran) =
    [(0, "subroutine loss_gain(r,loss_gain_array)".toList), (4, "implicit none".toList),
      (4, "REAL(8), intent(in), dimension(".toList ++ digits m ++ ") :: r".toList),
      (4, "REAL(8), intent(out), dimension(".toList ++ digits n ++ ") :: loss_gain_array".toList),
      (4, "loss_gain_array(:)=0.0D0".toList)] := by
  unfold lossGainFHead
  refine flatMap_cons_eq (l := []) (by decide +kernel) ?_
  refine flatMap_cons_eq (l := []) (by decide +kernel) ?_
  refine flatMap_cons_eq (l := [_]) (by decide +kernel) ?_
  refine flatMap_cons_eq (l := []) (by decide +kernel) ?_
  refine flatMap_cons_eq (l := [_]) (by decide +kernel) ?_
  refine flatMap_cons_eq (l := [_]) ?_ ?_
  · exact preLines_declaration (a := 'R') (u := "EAL(8), intent(in), dimension(".toList) (by decide +kernel)
      (v := ") :: ".toList) (z := 'r') (by decide +kernel) (by decide) (by decide) (by decide)
      (by decide) (by decide) (by decide) (by decide) (digits_dims m)
  refine flatMap_cons_eq (l := []) (by decide +kernel) ?_
  refine flatMap_cons_eq (l := [_]) ?_ ?_
  · exact preLines_declaration (a := 'R') (u := "EAL(8), intent(out), dimension(".toList) (by decide +kernel)
      (v := ") :: loss_gain_arra".toList) (z := 'y') (by decide +kernel) (by decide) (by decide) (by decide)
      (by decide) (by decide) (by decide) (by decide) (digits_dims n)
  refine flatMap_cons_eq (l := []) (by decide +kernel) ?_
  refine flatMap_cons_eq (l := []) (by decide +kernel) ?_
  exact flatMap_cons_eq (l := [_]) (by decide +kernel) rfl

theorem jacobianF_lines (n m : Nat) : (jacobianFHead (digits n) (digits m)).flatMap (preLines .fortran) =
    [(0, "subroutine jacobian(r,y,dy_dy)".toList), (4, "implicit none".toList),
      (4, "REAL(8), intent(in), dimension(".toList ++ digits m ++ ") :: r".toList),
      (4, "REAL(8), intent(in), dimension(".toList ++ digits n ++ ") :: y".toList),
      (4, "REAL(8), intent(out), dimension(".toList ++ (digits n ++ ',' :: digits n) ++ ") :: dy_dy".toList),
      (4, "dy_dy(:,:)=0.0D0".toList)] := by
  unfold jacobianFHead
  refine flatMap_cons_eq (l := []) (by decide +kernel) ?_
  refine flatMap_cons_eq (l := []) (by decide +kernel) ?_
  refine flatMap_cons_eq (l := [_]) (by decide +kernel) ?_
  refine flatMap_cons_eq (l := []) (by decide +kernel) ?_
  refine flatMap_cons_eq (l := [_]) (by decide +kernel) ?_
  refine flatMap_cons_eq (l := [_]) ?_ ?_
  · exact preLines_declaration (a := 'R') (u := "EAL(8), intent(in), dimension(".toList) (by decide +kernel)
      (v := ") :: ".toList) (z := 'r') (by decide +kernel) (by decide) (by decide) (by decide)
      (by decide) (by decide) (by decide) (by decide) (digits_dims m)
  refine flatMap_cons_eq (l := []) (by decide +kernel) ?_
  refine flatMap_cons_eq (l := [_]) ?_ ?_
  · exact preLines_declaration (a := 'R') (u := "EAL(8), intent(in), dimension(".toList) (by decide +kernel)
      (v := ") :: ".toList) (z := 'y') (by decide +kernel) (by decide) (by decide) (by decide)
      (by decide) (by decide) (by decide) (by decide) (digits_dims n)
  refine flatMap_cons_eq (l := []) (by decide +kernel) ?_
  refine flatMap_cons_eq (l := [_]) ?_ ?_
  · refine Eq.trans (congrArg (preLines .fortran) ?_) (preLines_declaration (dims := digits n ++ ',' :: digits n)
      (a := 'R') (u := "EAL(8), intent(out), dimension(".toList) rfl
      (v := ") :: dy_d".toList) (z := 'y') rfl (by decide) (by decide) (by decide)
      (by decide) (by decide) (by decide) (by decide) ?_)
    · simp only [List.append_assoc, List.cons_append, List.nil_append]
      rfl
    · intro c hc
      rcases List.mem_append.1 hc with h | h
      · exact .inl (digits_chars n c h)
      · rcases List.mem_cons.1 h with h | h
        · exact .inr h
        · exact .inl (digits_chars n c h)
  refine flatMap_cons_eq (l := []) (by decide +kernel) ?_
  exact flatMap_cons_eq (l := [_]) (by decide +kernel) rfl

theorem ends_append (s : Str) {t : Str} {c : Char} (h : t.getLast? = some c) : (s ++ t).getLast? = some c := by
  rw [List.getLast?_append, h]
  rfl

theorem flatten_ends {ws : List Str} (h0 : ws ≠ []) (h : ∀ s ∈ ws, s.getLast? = some '\n') :
    ws.flatten.getLast? = some '\n' := by
  obtain ⟨us, u, rfl⟩ := (List.eq_nil_or_concat ws).resolve_left h0
  rw [List.concat_eq_append, List.flatten_append, List.flatten_singleton]
  exact ends_append _ (h u (by simp))

theorem matches_f {L : Layout} {F : Frame} {init : List (Nat × Str)} {ls : Nat → Nat → List (Nat × Str)}
    (h1 : L.lang = .fortran) (h2 : F.lang = .fortran)
    (h3 : L.array = F.array) (h4 : NameOk F.array) (h5 : EolOk L.eol) (h6 : '\n' ∉ L.shared)
    (h7 : L.top.flatten.getLast? = some '\n') (h8 : preLines .fortran L.top.flatten = [])
    (h9 : ∀ n m, L.head (digits n) (digits m) ≠ [] ∧ ∀ s ∈ L.head (digits n) (digits m), s.getLast? = some '\n')
    (h10 : ∀ n m, (L.head (digits n) (digits m)).flatMap (preLines .fortran) = ls n m)
    (h11 : ∀ n m, ∀ l ∈ ls n m, (lower l.2).getLast? ≠ some '&')
    (h12 : ∀ n m, (ls n m).map Lang.fortran.sight = F.before n m ++ init)
    (h13 : code .fortran L.foot.flatten = F.after) : Matches L F init where
  lang := by rw [h1, h2]
  array := h3
  name := h4
  eol := h5
  shared := h6
  topEnds := h7
  top := by rw [h1]; exact h8
  headEnds n m := flatten_ends (h9 n m).1 (h9 n m).2
  headPlain n m l hl := by
    have e : preLines .fortran (L.head (digits n) (digits m)).flatten = _ := head_lines (h10 n m) (h9 n m).2
    rw [h1] at hl
    have hl : l ∈ preLines .fortran (L.head (digits n) (digits m)).flatten := hl
    rw [e] at hl
    exact h11 n m l hl
  head n m := by
    have e : preLines .fortran (L.head (digits n) (digits m)).flatten = _ := head_lines (h10 n m) (h9 n m).2
    rw [h1]
    show (preLines .fortran (L.head (digits n) (digits m)).flatten).map _ = _
    rw [e]
    exact h12 n m
  foot := by
    rw [h1]
    exact h13

/-- What is read of a declaration. -/
theorem sight_declared (i : Nat) (io name : String) {dims : Str} (hd : lower dims = dims) (a b : Str)
    (ha : lower a = "real(8), intent(".toList ++ io.toList ++ "), dimension(".toList)
    (hb : lower b = ") :: ".toList ++ name.toList) :
    Lang.fortran.sight (i, a ++ dims ++ b) = declared io dims name := by
  unfold Lang.sight declared
  dsimp only
  rw [lower_append, lower_append, ha, hb, hd]
  simp only [List.append_assoc]

theorem lower_last_declared {a dims b : Str} {z : Char} (hz : (lower b).getLast? = some z) (h : z ≠ '&') :
    (lower (a ++ dims ++ b)).getLast? ≠ some '&' := by
  rw [lower_append, ends_append _ hz]
  intro e
  exact h (Option.some.inj e)

theorem low_digits (n : Nat) : lower (digits n) = digits n := lower_digits n

theorem lower_dims (n : Nat) : lower (digits n ++ ',' :: digits n) = digits n ++ ',' :: digits n := by
  have h : lower (digits n) = digits n := lower_digits n
  rw [lower_append, show ',' :: digits n = [','] ++ digits n from rfl, lower_append, h]
  rfl

theorem reactantsF_matches : Matches reactantsFLayout reactantsFFrame [] :=
  matches_f rfl rfl rfl (by decide) (by decide) (by decide) (by decide +kernel) (by decide +kernel)
    (fun n m => ⟨(by intro h; cases h), by
      intro s hs
      simp only [reactantsFLayout, reactantsFHead, List.mem_cons, List.not_mem_nil, or_false] at hs
      rcases hs with rfl | rfl | rfl | rfl | rfl | rfl | rfl | rfl <;>
        first | decide | exact ends_append _ (by decide)⟩)
    reactantsF_lines
    (by
      intro n m l hl
      simp only [List.mem_cons, List.not_mem_nil, or_false] at hl
      rcases hl with rfl | rfl | rfl | rfl
      · decide
      · decide
      · exact lower_last_declared (z := 'y') (by decide) (by decide)
      · exact lower_last_declared (z := 'c') (by decide) (by decide))
    (by
      intro n m
      simp only [List.map_cons, List.map_nil]
      rw [sight_declared 4 "in" "y" (low_digits n) _ _ (by decide +kernel) (by decide +kernel),
        sight_declared 4 "out" "reactants_conc" (low_digits m) _ _ (by decide +kernel) (by decide +kernel)]
      rfl)
    (by rw [code_fortran]; decide +kernel)

theorem lossGainF_matches : Matches lossGainFLayout lossGainFFrame [(0, "loss_gain_array(:)=0.0d0".toList)] :=
  matches_f rfl rfl rfl (by decide) (by decide) (by decide) (by decide +kernel) (by decide +kernel)
    (fun n m => ⟨(by intro h; cases h), by
      intro s hs
      simp only [lossGainFLayout, lossGainFHead, List.mem_cons, List.not_mem_nil, or_false] at hs
      rcases hs with rfl | rfl | rfl | rfl | rfl | rfl | rfl | rfl | rfl | rfl | rfl <;>
        first | decide | exact ends_append _ (by decide)⟩)
    lossGainF_lines
    (by
      intro n m l hl
      simp only [List.mem_cons, List.not_mem_nil, or_false] at hl
      rcases hl with rfl | rfl | rfl | rfl | rfl
      · decide
      · decide
      · exact lower_last_declared (z := 'r') (by decide) (by decide)
      · exact lower_last_declared (z := 'y') (by decide) (by decide)
      · decide)
    (by
      intro n m
      simp only [List.map_cons, List.map_nil]
      rw [sight_declared 4 "in" "r" (low_digits m) _ _ (by decide +kernel) (by decide +kernel),
        sight_declared 4 "out" "loss_gain_array" (low_digits n) _ _ (by decide +kernel) (by decide +kernel)]
      rfl)
    (by rw [code_fortran]; decide +kernel)

theorem jacobianF_matches : Matches jacobianFLayout jacobianFFrame [(0, "dy_dy(:,:)=0.0d0".toList)] :=
  matches_f rfl rfl rfl (by decide) (by decide) (by decide) (by decide +kernel) (by decide +kernel)
    (fun n m => ⟨(by intro h; cases h), by
      intro s hs
      simp only [jacobianFLayout, jacobianFHead, List.mem_cons, List.not_mem_nil, or_false] at hs
      rcases hs with rfl | rfl | rfl | rfl | rfl | rfl | rfl | rfl | rfl | rfl | rfl | rfl <;>
        first | decide | exact ends_append _ (by decide)⟩)
    jacobianF_lines
    (by
      intro n m l hl
      simp only [List.mem_cons, List.not_mem_nil, or_false] at hl
      rcases hl with rfl | rfl | rfl | rfl | rfl | rfl
      · decide
      · decide
      · exact lower_last_declared (z := 'r') (by decide) (by decide)
      · exact lower_last_declared (z := 'y') (by decide) (by decide)
      · exact lower_last_declared (z := 'y') (by decide) (by decide)
      · decide)
    (by
      intro n m
      simp only [List.map_cons, List.map_nil]
      rw [sight_declared 4 "in" "r" (low_digits m) _ _ (by decide +kernel) (by decide +kernel),
        sight_declared 4 "in" "y" (low_digits n) _ _ (by decide +kernel) (by decide +kernel),
        sight_declared 4 "out" "dy_dy" (lower_dims n) _ _ (by decide +kernel) (by decide +kernel)]
      rfl)
    (by rw [code_fortran]; decide +kernel)

end PyBox
