import Verif.Rate.Text

/-!
# The bracket step of the numba converter
-/

namespace PyBox

theorem findSub_char_append {c : Char} {a : Str} (h : c ∉ a) (b : Str) :
    findSub [c] (a ++ c :: b) = some a.length := by
  induction a with
  | nil => simp [findSub]
  | cons x a ih =>
    rw [List.mem_cons, not_or] at h
    rw [List.cons_append, findSub, if_neg, ih h.2]
    · rfl
    · simp [h.1]

theorem pySet_append (p l : Str) (hl : l ≠ []) (i : Option Nat) (c : Char) :
    pySet (p ++ l) (i.map (· + p.length)) c = p ++ pySet l i c := by
  cases i with
  | some i =>
    simp only [pySet, Option.map_some]
    rw [List.set_append_right _ _ (by omega), Nat.add_sub_cancel]
  | none =>
    simp only [pySet, Option.map_none, List.length_append]
    have := List.length_pos_iff.2 hl
    rw [List.set_append_right _ _ (by omega)]
    congr 2
    omega

theorem pySet_length (l : Str) (i : Option Nat) (c : Char) : (pySet l i c).length = l.length := by
  cases i <;> simp [pySet]

theorem photoStep_length (t l : Str) (n : Nat) : (photoStep t l n).length = l.length := by
  unfold photoStep; rw [pySet_length, pySet_length]

theorem findFrom_append (sub p b : Str) (n : Nat) :
    findFrom sub (p ++ b) (n + p.length) = (findFrom sub b n).map (· + p.length) := by
  unfold findFrom
  have : (p ++ b).drop (n + p.length) = b.drop n := by
    rw [List.drop_append, List.drop_eq_nil_of_le (by omega)]
    simp
  rw [this, Option.map_map]
  congr 1
  funext k
  simp only [Function.comp]
  omega

theorem photoStep_append (p p' b l : Str) (hp : p.length = p'.length) (hl : l ≠ []) (n : Nat) :
    photoStep (p ++ b) (p' ++ l) (n + p.length) = p' ++ photoStep b l n := by
  unfold photoStep
  rw [findFrom_append, findFrom_append, hp, pySet_append p' l hl, pySet_append]
  intro h
  have := congrArg List.length h
  rw [pySet_length] at this
  exact hl (List.length_eq_zero_iff.1 this)

theorem photoFold_append (p p' b : Str) (hp : p.length = p'.length) (ns : List Nat) :
    ∀ l : Str, l ≠ [] → (ns.map (· + p.length)).foldl (photoStep (p ++ b)) (p' ++ l) =
      p' ++ ns.foldl (photoStep b) l := by
  induction ns with
  | nil => intros; rfl
  | cons n ns ih =>
    intro l hl
    rw [List.map_cons, List.foldl_cons, List.foldl_cons, photoStep_append p p' b l hp hl, ih]
    intro h
    have := congrArg List.length h
    rw [photoStep_length] at this
    exact hl (List.length_eq_zero_iff.1 this)

/-- Positions of a pattern in a concatenation where no match starts in the first part except at the
listed places. -/
theorem photoPositions_append (p b : Str) :
    photoPositions (p ++ b) =
      (List.range p.length).filter (fun i => "J(".toList.isPrefixOf ((p ++ b).drop i)) ++
        (photoPositions b).map (· + p.length) := by
  unfold photoPositions
  rw [List.length_append, List.range_add, List.filter_append, List.filter_map]
  congr 1
  have : ((fun i => "J(".toList.isPrefixOf ((p ++ b).drop i)) ∘ fun x => p.length + x) =
      fun i => "J(".toList.isPrefixOf (b.drop i) := by
    funext i
    simp only [Function.comp]
    congr 1
    rw [List.drop_append, List.drop_eq_nil_of_le (by omega)]
    simp
  rw [this]
  apply List.map_congr_left
  intro i _
  omega

/-- No photolysis reference starts in the text. -/
def NoPhoto (a : Str) : Prop := ¬ "J(".toList <:+: a

theorem photoPositions_nil {a : Str} (h : NoPhoto a) : photoPositions a = [] := by
  unfold photoPositions
  rw [List.filter_eq_nil_iff]
  intro i _ hp
  rw [isPrefixOf_iff] at hp
  exact h (hp.isInfix.trans (List.drop_suffix i a).isInfix)

theorem photoBrackets_of_noPhoto {a : Str} (h : NoPhoto a) : photoBrackets a = a := by
  unfold photoBrackets
  rw [photoPositions_nil h]; rfl

/-- One reference: the bracket step rewrites it and goes on with the rest. -/
theorem photoBrackets_ref {a n : Str} (ha : NoPhoto a) (hn : '(' ∉ n ∧ ')' ∉ n) (b : Str) :
    photoBrackets (a ++ ("J(".toList ++ n ++ [')'] ++ b)) =
      a ++ ("J[".toList ++ n ++ [']'] ++ photoBrackets b) := by
  set p : Str := a ++ ("J(".toList ++ n ++ [')']) with hp
  have htext : a ++ ("J(".toList ++ n ++ [')'] ++ b) = p ++ b := by rw [hp]; simp
  have hplen : p.length = a.length + 3 + n.length := by rw [hp]; simp; omega
  -- the only position in the first part
  have hpos : (List.range p.length).filter (fun i => "J(".toList.isPrefixOf ((p ++ b).drop i)) =
      [a.length] := by
    have hmem : ∀ i, i < p.length → ("J(".toList.isPrefixOf ((p ++ b).drop i) = true ↔ i = a.length) := by
      intro i hi
      rw [isPrefixOf_iff]
      constructor
      · intro hpre
        by_contra hne
        rcases Nat.lt_or_gt_of_ne hne with hlt | hgt
        · -- starts in a
          have hd : (p ++ b).drop i = a.drop i ++ ('J' :: '(' :: (n ++ [')'] ++ b)) := by
            rw [← htext, List.drop_append_of_le_length (by omega)]; simp
          rw [hd] at hpre
          obtain ⟨x, r, hr⟩ := List.exists_cons_of_ne_nil
            (show a.drop i ≠ [] by rw [Ne, List.drop_eq_nil_iff]; omega)
          rw [hr] at hpre
          have h1 : "J(".toList = ['J', '('] := rfl
          rw [h1, List.cons_append, List.cons_prefix_cons] at hpre
          obtain ⟨rfl, hpre⟩ := hpre
          cases r with
          | nil =>
            rw [List.nil_append, List.cons_prefix_cons] at hpre
            exact absurd hpre.1 (by decide)
          | cons y r =>
            rw [List.cons_append, List.cons_prefix_cons] at hpre
            obtain ⟨rfl, -⟩ := hpre
            apply ha
            refine List.IsInfix.trans ?_ (List.drop_suffix i a).isInfix
            rw [hr]
            exact (List.prefix_iff_eq_take.2 rfl : ['J', '('] <+: 'J' :: '(' :: r).isInfix
        · -- starts later
          obtain ⟨j, rfl⟩ : ∃ j, i = a.length + 1 + j := ⟨i - a.length - 1, by omega⟩
          have hd : (p ++ b).drop (a.length + 1 + j) = ('(' :: (n ++ ')' :: b)).drop j := by
            rw [← htext, List.drop_append, List.drop_eq_nil_of_le (by omega)]
            rw [show a.length + 1 + j - a.length = j + 1 from by omega]
            simp
          rw [hd] at hpre
          have h1 : "J(".toList = ['J', '('] := rfl
          rw [h1] at hpre
          cases j with
          | zero => rw [List.drop_zero, List.cons_prefix_cons] at hpre; exact absurd hpre.1 (by decide)
          | succ j =>
            rw [List.drop_succ_cons] at hpre
            have hj : j ≤ n.length := by omega
            rw [List.drop_append_of_le_length hj] at hpre
            cases hr : n.drop j with
            | nil =>
              rw [hr, List.nil_append, List.cons_prefix_cons] at hpre
              exact absurd hpre.1 (by decide)
            | cons x r =>
              rw [hr, List.cons_append, List.cons_prefix_cons] at hpre
              obtain ⟨rfl, hpre⟩ := hpre
              cases r with
              | nil => rw [List.nil_append, List.cons_prefix_cons] at hpre; exact absurd hpre.1 (by decide)
              | cons y r =>
                rw [List.cons_append, List.cons_prefix_cons] at hpre
                obtain ⟨rfl, -⟩ := hpre
                apply hn.1
                have : '(' ∈ n.drop j := by rw [hr]; simp
                exact List.mem_of_mem_drop this
      · rintro rfl
        rw [← htext, List.drop_left]
        exact ⟨n ++ [')'] ++ b, by simp⟩
    have hfil : (List.range p.length).filter (fun i => "J(".toList.isPrefixOf ((p ++ b).drop i)) =
        (List.range p.length).filter (fun i => decide (i = a.length)) := by
      apply List.filter_congr
      intro i hi
      rw [Bool.eq_iff_iff, hmem i (List.mem_range.1 hi), decide_eq_true_iff]
    rw [hfil]
    have hd : p.length = a.length + (1 + (2 + n.length)) := by omega
    rw [hd, List.range_add, List.filter_append, List.range_add, List.map_append, List.filter_append]
    have h1 : (List.range a.length).filter (fun i => decide (i = a.length)) = [] := by
      rw [List.filter_eq_nil_iff]
      intro i hi
      have := List.mem_range.1 hi
      simp; omega
    have h2 : (List.map (fun x => a.length + x) (List.map (fun x => 1 + x)
        (List.range (2 + n.length)))).filter (fun i => decide (i = a.length)) = [] := by
      rw [List.filter_eq_nil_iff]
      intro i hi
      rw [List.map_map, List.mem_map] at hi
      obtain ⟨x, -, rfl⟩ := hi
      simp
    rw [h1, h2]
    simp [List.range_succ]
  rw [htext]
  unfold photoBrackets
  rw [photoPositions_append, hpos, List.foldl_append, List.foldl_cons, List.foldl_nil]
  have hstep : photoStep (p ++ b) (p ++ b) a.length = (a ++ ("J[".toList ++ n ++ [']'])) ++ b := by
    unfold photoStep findFrom
    have hd : (p ++ b).drop a.length = 'J' :: '(' :: (n ++ ')' :: b) := by
      rw [← htext, List.drop_left]; simp
    have f1 : findSub ['('] ((p ++ b).drop a.length) = some 1 := by
      rw [hd]; exact findSub_char_append (a := ['J']) (by decide) _
    have f2 : findSub [')'] ((p ++ b).drop a.length) = some (n.length + 2) := by
      rw [hd]
      exact findSub_char_append (a := 'J' :: '(' :: n) (by simp [hn.2]) b
    rw [f1, f2, ← htext]
    simp only [Option.map_some, pySet]
    rw [List.set_append_right _ _ (by omega), show 1 + a.length - a.length = 1 from by omega,
      List.set_append_right _ _ (by omega), show n.length + 2 + a.length - a.length = n.length + 2 from by omega]
    simp [List.set_append_right]
  rw [hstep]
  cases b with
  | nil => simp [photoPositions]
  | cons x b =>
    rw [photoFold_append p _ (x :: b) (by rw [hplen]; simp; omega) _ _ (by simp)]
    simp

end PyBox
