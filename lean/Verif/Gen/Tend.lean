import Verif.Gen.Lines
import Verif.Props.Parsing

/-!
# Tendency routines for the tables produced by the parser
-/

namespace PyBox

open Spec

/-! ### `touchAll` -/

theorem touchFold (l : List (Str × Nat)) : ∀ (g : GenIn),
    let g' := l.foldl (fun (g : GenIn) p =>
      if p.1 ∈ excluded then g
      else { g with loss := g.loss.touch p.1 [], gain := g.gain.touch p.1 [] }) g
    g'.index = g.index ∧ g'.reactants = g.reactants ∧
    (∀ s, g'.loss.getD s [] = g.loss.getD s []) ∧ (∀ s, g'.gain.getD s [] = g.gain.getD s []) ∧
    (∀ s, s ∈ g'.loss.keys ↔ s ∈ g.loss.keys ∨ (s ∉ excluded ∧ ∃ p ∈ l, p.1 = s)) := by
  induction l with
  | nil => intro g; simp
  | cons p l ih =>
    intro g
    simp only [List.foldl_cons]
    by_cases h : p.1 ∈ excluded
    · simp only [h, if_true]
      obtain ⟨h1, h2, h3, h4, h5⟩ := ih g
      refine ⟨h1, h2, h3, h4, ?_⟩
      intro s
      rw [h5]
      constructor
      · rintro (h6 | ⟨h6, p', h7, h8⟩)
        · exact .inl h6
        · exact .inr ⟨h6, p', List.mem_cons_of_mem _ h7, h8⟩
      · rintro (h6 | ⟨h6, p', h7, h8⟩)
        · exact .inl h6
        · rcases List.mem_cons.1 h7 with rfl | h7
          · exact absurd (h8 ▸ h) h6
          · exact .inr ⟨h6, p', h7, h8⟩
    · simp only [h, if_false]
      obtain ⟨h1, h2, h3, h4, h5⟩ := ih { g with loss := g.loss.touch p.1 [], gain := g.gain.touch p.1 [] }
      refine ⟨h1, h2, ?_, ?_, ?_⟩
      · intro s; rw [h3, Dict.getD_touch]
      · intro s; rw [h4, Dict.getD_touch]
      · intro s
        rw [h5, Dict.mem_keys_touch]
        constructor
        · rintro ((h6 | h6) | ⟨h6, p', h7, h8⟩)
          · exact .inr ⟨h6 ▸ h, p, by simp, h6.symm⟩
          · exact .inl h6
          · exact .inr ⟨h6, p', List.mem_cons_of_mem _ h7, h8⟩
        · rintro (h6 | ⟨h6, p', h7, h8⟩)
          · exact .inl (.inr h6)
          · rcases List.mem_cons.1 h7 with rfl | h7
            · exact .inl (.inl h8.symm)
            · exact .inr ⟨h6, p', h7, h8⟩

theorem touchAll_spec (g : GenIn) :
    (touchAll g).index = g.index ∧ (touchAll g).reactants = g.reactants ∧
    (∀ s, (touchAll g).loss.getD s [] = g.loss.getD s []) ∧
    (∀ s, (touchAll g).gain.getD s [] = g.gain.getD s []) ∧
    (∀ s, s ∈ (touchAll g).loss.keys ↔ s ∈ g.loss.keys ∨ (s ∉ excluded ∧ ∃ p ∈ g.index, p.1 = s)) :=
  touchFold g.index g

/-- The assignments of the Python tendency routine. -/
theorem mem_writeLossGainPy (g : GenIn) (k : Nat) (rhs : List Tok) :
    Line.asg k rhs ∈ writeLossGainPy g ↔
      ∃ s, (s, k) ∈ g.index ∧ s ∉ excluded ∧
        rhs = lossToksPy true (g.loss.getD s []) ++ gainToksPy (g.gain.getD s []) := by
  obtain ⟨h1, -, h3, h4, h5⟩ := touchAll_spec g
  unfold writeLossGainPy
  rw [h1, List.mem_map]
  constructor
  · rintro ⟨⟨s, i⟩, hm, he⟩
    unfold tendencyLinePy at he
    by_cases hx : s ∈ excluded
    · simp [hx] at he
    · simp only [hx, if_false] at he
      have : s ∈ (touchAll g).loss.keys := (h5 s).2 (.inr ⟨hx, _, hm, rfl⟩)
      simp only [this, true_or, if_true, h3, h4, Line.asg.injEq] at he
      obtain ⟨rfl, rfl⟩ := he
      exact ⟨s, hm, hx, rfl⟩
  · rintro ⟨s, hm, hx, rfl⟩
    refine ⟨(s, k), hm, ?_⟩
    unfold tendencyLinePy
    have : s ∈ (touchAll g).loss.keys := (h5 s).2 (.inr ⟨hx, _, hm, rfl⟩)
    simp [hx, this, h3, h4]

theorem getD_of_not_mem {α β : Type} [DecidableEq α] {d : Dict α β} {a : α} {v : β} (h : a ∉ d.keys) :
    d.getD a v = v := by
  have := (Dict.get?_eq_none_iff (d := d) (k := a)).2 h
  unfold Dict.getD; rw [this]; rfl

/-- Right-hand side of a Fortran tendency line, whatever keys exist. -/
theorem tendencyRhsF (g : GenIn) (s : Str) :
    (let l := if s ∈ g.loss.keys then lossToksF true 0 (g.loss.getD s []) else ([], 0)
     let k := if s ∈ g.gain.keys then gainToksF l.2 (g.gain.getD s []) else []
     l.1 ++ k) =
    (lossToksF true 0 (g.loss.getD s [])).1 ++
      gainToksF (lossToksF true 0 (g.loss.getD s [])).2 (g.gain.getD s []) := by
  by_cases h1 : s ∈ g.loss.keys <;> by_cases h2 : s ∈ g.gain.keys <;>
    simp [h1, h2, getD_of_not_mem, lossToksF, gainToksF]

theorem mem_flatten_groups {κ : Type} {α : Type} (f : α → Line κ) (l : List α) (x : Line κ) :
    x ∈ (l.map (fun p => [f p])).flatten ↔ ∃ p ∈ l, f p = x := by
  simp only [List.mem_flatten, List.mem_map]
  constructor
  · rintro ⟨y, ⟨p, hp, rfl⟩, hx⟩
    simp only [List.mem_singleton] at hx
    exact ⟨p, hp, hx.symm⟩
  · rintro ⟨p, hp, rfl⟩
    exact ⟨[f p], ⟨p, hp, rfl⟩, by simp⟩

/-- The assignments of the Fortran tendency routine (directives aside). -/
theorem mem_tendencyLinesF (g : GenIn) (k : Nat) (rhs : List Tok) :
    Line.asg k rhs ∈ (g.index.map (fun p => [tendencyLineF g p])).flatten ↔
      ∃ s i, (s, i) ∈ g.index ∧ s ∉ excluded ∧ (s ∈ g.loss.keys ∨ s ∈ g.gain.keys) ∧ k = i + 1 ∧
        rhs = (lossToksF true 0 (g.loss.getD s [])).1 ++
          gainToksF (lossToksF true 0 (g.loss.getD s [])).2 (g.gain.getD s []) := by
  rw [mem_flatten_groups]
  constructor
  · rintro ⟨⟨s, i⟩, hm, he⟩
    unfold tendencyLineF at he
    by_cases hx : s ∈ excluded
    · simp [hx] at he
    · simp only [hx, if_false] at he
      by_cases hk : s ∈ g.loss.keys ∨ s ∈ g.gain.keys
      · rw [if_pos hk, tendencyRhsF, Line.asg.injEq] at he
        exact ⟨s, i, hm, hx, hk, he.1.symm, he.2.symm⟩
      · rw [if_neg hk] at he; cases he
  · rintro ⟨s, i, hm, hx, hk, rfl, rfl⟩
    refine ⟨(s, i), hm, ?_⟩
    unfold tendencyLineF
    simp only [hx, if_false]
    rw [if_pos hk, tendencyRhsF]

/-! ### The index table of the parser -/

theorem index_mem_iff (qs : List RawEqn) (s : Str) (i : Nat) :
    (s, i) ∈ (build qs).index ↔ (build qs).index.get? s = some i := by
  have hi := spInv_build qs
  rw [Dict.get?_eq_some_iff]
  rw [hi.index_eq, zipIdx_keys]; exact hi.nodup

theorem index_inj (qs : List RawEqn) {s s' : Str} {i : Nat} (h : (s, i) ∈ (build qs).index)
    (h' : (s', i) ∈ (build qs).index) : s = s' := by
  have hi := spInv_build qs
  rw [index_mem_iff, hi.index_eq, zipIdx_get? _ hi.nodup] at h h'
  rw [h] at h'; injection h'

theorem index_fun (qs : List RawEqn) {s : Str} {i i' : Nat} (h : (s, i) ∈ (build qs).index)
    (h' : (s, i') ∈ (build qs).index) : i = i' := by
  rw [index_mem_iff] at h h'
  rw [h] at h'; injection h'

/-- Every species has a key in one of the tables. -/
theorem index_keys (qs : List RawEqn) {s : Str} {i : Nat} (h : (s, i) ∈ (build qs).index) :
    s ∈ (build qs).loss.keys ∨ s ∈ (build qs).gain.keys := by
  rw [index_mem_iff] at h
  obtain ⟨q, hq, hs⟩ := (indexed_iff qs s).1 ⟨i, h⟩
  simp only [occurrences, List.mem_filter, List.mem_append, names, List.mem_map] at hs
  obtain ⟨⟨p, hp, rfl⟩ | ⟨p, hp, rfl⟩, hne⟩ := hs
  · left
    rw [mem_keys_build_loss]
    exact ⟨q, hq, by simp only [names, nonHv, List.mem_map, List.mem_filter]; exact ⟨p, ⟨hp, hne⟩, rfl⟩⟩
  · right
    rw [mem_keys_build_gain]
    exact ⟨q, hq, .inr (by
      simp only [names, nonHv, List.mem_map, List.mem_filter]; exact ⟨p, ⟨hp, hne⟩, rfl⟩)⟩

theorem keys_lt_loss (qs : List RawEqn) (s : Str) :
    ∀ e ∈ ((build qs).loss.getD s []).keys, e < qs.length := by
  intro e he
  have : (cell (build qs).loss s e).isSome := (Dict.get?_isSome_iff _ _).2 he
  rw [cell_build_loss] at this
  cases hq : qs[e]? with
  | none => rw [hq] at this; simp at this
  | some q => exact (List.getElem?_eq_some_iff.1 hq).1

theorem keys_lt_gain (qs : List RawEqn) (s : Str) :
    ∀ e ∈ ((build qs).gain.getD s []).keys, e < qs.length := by
  intro e he
  have : (cell (build qs).gain s e).isSome := (Dict.get?_isSome_iff _ _).2 he
  rw [cell_build_gain] at this
  cases hq : qs[e]? with
  | none => rw [hq] at this; simp at this
  | some q => exact (List.getElem?_eq_some_iff.1 hq).1

theorem rateSum_loss (env : Env) (qs : List RawEqn) (s : Str) :
    rateSum env ((build qs).loss.getD s []) =
      ∑ e ∈ Finset.range qs.length, (((cell (build qs).loss s e).getD 0 : ℚ) : ℝ) * env.r e :=
  rateSum_eq env _ _ (innerNodup_build_loss qs s) (keys_lt_loss qs s)

theorem rateSum_gain (env : Env) (qs : List RawEqn) (s : Str) :
    rateSum env ((build qs).gain.getD s []) =
      ∑ e ∈ Finset.range qs.length, (((cell (build qs).gain s e).getD 0 : ℚ) : ℝ) * env.r e :=
  rateSum_eq env _ _ (innerNodup_build_gain qs s) (keys_lt_gain qs s)

theorem fortranDict_keys (d : Dict Nat ℚ) : (fortranDict d).keys = d.keys := by
  simp [fortranDict, Dict.keys, Function.comp_def]

theorem fortranDict_get? (d : Dict Nat ℚ) (e : Nat) :
    (fortranDict d).get? e = (d.get? e).map fortranCoef := by
  induction d with
  | nil => rfl
  | cons p d ih =>
    obtain ⟨k, v⟩ := p
    have : fortranDict ((k, v) :: d) = (k, fortranCoef v) :: fortranDict d := rfl
    rw [this]
    simp only [Dict.get?]
    by_cases h : k = e
    · simp [h]
    · simp [h, ih]

theorem rateSumF_loss (env : Env) (qs : List RawEqn) (s : Str) :
    rateSum env (fortranDict ((build qs).loss.getD s [])) =
      ∑ e ∈ Finset.range qs.length,
        ((((cell (build qs).loss s e).map fortranCoef).getD 0 : ℚ) : ℝ) * env.r e := by
  rw [rateSum_eq env _ qs.length (by rw [fortranDict_keys]; exact innerNodup_build_loss qs s)
    (by rw [fortranDict_keys]; exact keys_lt_loss qs s)]
  simp only [fortranDict_get?]; rfl

theorem rateSumF_gain (env : Env) (qs : List RawEqn) (s : Str) :
    rateSum env (fortranDict ((build qs).gain.getD s [])) =
      ∑ e ∈ Finset.range qs.length,
        ((((cell (build qs).gain s e).map fortranCoef).getD 0 : ℚ) : ℝ) * env.r e := by
  rw [rateSum_eq env _ qs.length (by rw [fortranDict_keys]; exact innerNodup_build_gain qs s)
    (by rw [fortranDict_keys]; exact keys_lt_gain qs s)]
  simp only [fortranDict_get?]; rfl

/-- Python tendencies on parser tables. -/
theorem tendencyPy_value {qs : List RawEqn} {env : Env} {a out : Nat → ℝ}
    (h : exec .python env (writeLossGainPy (build qs).gen) a = some out) {s : Str} {i : Nat}
    (hs : (s, i) ∈ (build qs).index) (hx : s ∉ excluded) :
    out i = rateSum env ((build qs).gain.getD s []) - rateSum env ((build qs).loss.getD s []) := by
  have hval := (exec_isSome_iff .python env (writeLossGainPy (build qs).gen) a).1 (by rw [h]; rfl)
  have hmem := (mem_writeLossGainPy (build qs).gen i _).2 ⟨s, hs, hx, rfl⟩
  refine exec_value .python env _ a out i _ h ⟨i, _, hmem, rfl⟩ ?_
  intro k rhs hm hk
  have hk' : k = i := hk
  subst hk'
  have hsome := hval _ _ hm
  rw [mem_writeLossGainPy] at hm
  obtain ⟨s', hs', -, rfl⟩ := hm
  have : s' = s := index_inj qs hs' hs
  subst this
  rw [evalRhs_tendencyPy] at hsome ⊢
  split at hsome
  · simp at hsome
  · rename_i hne; rw [if_neg hne]; rfl

/-- Fortran tendencies on parser tables. -/
theorem tendencyF_value {qs : List RawEqn} {env : Env} {n : Nat} {cores : Option Nat} {a out : Nat → ℝ}
    (h : exec .fortran env (writeLossGainF (build qs).gen n cores) a = some out) {s : Str} {i : Nat}
    (hs : (s, i) ∈ (build qs).index) (hx : s ∉ excluded) :
    out i = rateSum env (fortranDict ((build qs).gain.getD s [])) -
      rateSum env (fortranDict ((build qs).loss.getD s [])) := by
  unfold writeLossGainF at h
  rw [exec_withOmp] at h
  have hval := (exec_isSome_iff .fortran env _ a).1 (by rw [h]; rfl)
  have hmem := (mem_tendencyLinesF (build qs).gen (i + 1) _).2
    ⟨s, i, hs, hx, index_keys qs hs, rfl, rfl⟩
  refine exec_value .fortran env _ a out i _ h ⟨i + 1, _, hmem, rfl⟩ ?_
  intro k rhs hm hk
  have hsome := hval _ _ hm
  rw [mem_tendencyLinesF] at hm
  obtain ⟨s', i', hs', -, -, rfl, rfl⟩ := hm
  have hk' : i' = i := hk
  subst hk'
  have : s' = s := index_inj qs hs' hs
  subst this
  rw [evalRhs_tendencyF] at hsome ⊢
  split at hsome
  · simp at hsome
  · rename_i hne; rw [if_neg hne]; rfl

end PyBox
