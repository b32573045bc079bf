import Mathlib.Data.List.Nodup

/-!
# Insertion-ordered dictionaries

Model of Python's `dict` / `collections.defaultdict` as used by `/repo/Parse_eqn_file.py`:
an association list in insertion order.  Assignment to an existing key keeps its position,
assignment to a new key appends (CPython ≥ 3.7 iteration order).
-/

namespace PyBox

/-- A Python dictionary: keys with values, in insertion order. -/
abbrev Dict (α β : Type _) := List (α × β)

namespace Dict

variable {α : Type _} {β : Type _} [DecidableEq α]

/-- `d.get(k)`; `none` models an absent key (`KeyError` on `d[k]`). -/
def get? : Dict α β → α → Option β
  | [], _ => none
  | (k', v) :: t, k => if k' = k then some v else get? t k

/-- `d[k] = v`. -/
def set : Dict α β → α → β → Dict α β
  | [], k, v => [(k, v)]
  | (k', v') :: t, k, v => if k' = k then (k', v) :: t else (k', v') :: set t k v

/-- `d.keys()` in iteration order. -/
def keys (d : Dict α β) : List α := d.map (·.1)

/-- `d.values()` in iteration order. -/
def values (d : Dict α β) : List β := d.map (·.2)

/-- `d[k]` on a `defaultdict` whose factory returns `dflt`: a missing key is inserted. -/
def touch (d : Dict α β) (k : α) (dflt : β) : Dict α β :=
  match d.get? k with
  | some _ => d
  | none => d.set k dflt

/-- Value read by `d[k]` on a `defaultdict` whose factory returns `dflt`. -/
def getD (d : Dict α β) (k : α) (dflt : β) : β := (d.get? k).getD dflt

/-! ### Laws -/

@[simp] theorem get?_nil (k : α) : get? ([] : Dict α β) k = none := rfl

theorem get?_cons (p : α × β) (t : Dict α β) (k : α) :
    get? (p :: t) k = if p.1 = k then some p.2 else get? t k := by
  cases p; rfl

@[simp] theorem get?_set_self (d : Dict α β) (k : α) (v : β) : (d.set k v).get? k = some v := by
  induction d with
  | nil => simp [set, get?]
  | cons p t ih =>
    obtain ⟨k', v'⟩ := p
    by_cases h : k' = k
    · simp [set, get?, h]
    · simp [set, get?, h, ih]

theorem get?_set_ne (d : Dict α β) {k k' : α} (v : β) (h : k' ≠ k) :
    (d.set k v).get? k' = d.get? k' := by
  induction d with
  | nil => simp [set, get?, Ne.symm h]
  | cons p t ih =>
    obtain ⟨k'', v''⟩ := p
    by_cases h' : k'' = k
    · subst h'
      simp [set, get?, Ne.symm h]
    · simp only [set, h', if_false, get?, ih]

theorem get?_set (d : Dict α β) (k k' : α) (v : β) :
    (d.set k v).get? k' = if k' = k then some v else d.get? k' := by
  by_cases h : k' = k
  · subst h; simp
  · simp [h, get?_set_ne d v h]

theorem get?_eq_none_iff (d : Dict α β) (k : α) : d.get? k = none ↔ k ∉ d.keys := by
  induction d with
  | nil => simp [keys]
  | cons p t ih =>
    obtain ⟨k', v'⟩ := p
    by_cases h : k' = k
    · simp [get?, keys, h]
    · have h2 : ¬ k = k' := fun e => h e.symm
      simp only [keys] at ih
      simp [get?, keys, h, h2, ih]

theorem get?_isSome_iff (d : Dict α β) (k : α) : (d.get? k).isSome ↔ k ∈ d.keys := by
  have h := get?_eq_none_iff d k
  cases hg : d.get? k with
  | none => simp [hg] at h; simp [h]
  | some v => simp [hg] at h; simp [h]

theorem mem_of_get?_eq_some {d : Dict α β} {k : α} {v : β} (h : d.get? k = some v) :
    (k, v) ∈ d := by
  induction d with
  | nil => simp at h
  | cons p t ih =>
    obtain ⟨k', v'⟩ := p
    by_cases h' : k' = k
    · subst h'
      simp [get?] at h
      simp [h]
    · simp only [get?, h', if_false] at h
      exact List.mem_cons_of_mem _ (ih h)

theorem mem_keys_of_get?_eq_some {d : Dict α β} {k : α} {v : β} (h : d.get? k = some v) :
    k ∈ d.keys := (get?_isSome_iff d k).1 (by simp [h])

theorem get?_eq_some_of_mem {d : Dict α β} (hn : d.keys.Nodup) {k : α} {v : β}
    (h : (k, v) ∈ d) : d.get? k = some v := by
  induction d with
  | nil => simp at h
  | cons p t ih =>
    obtain ⟨k', v'⟩ := p
    simp only [keys, List.map_cons, List.nodup_cons] at hn
    rcases List.mem_cons.1 h with h | h
    · simp only [Prod.mk.injEq] at h
      simp [get?, h.1, h.2]
    · have hne : k' ≠ k := by
        rintro rfl
        exact hn.1 (List.mem_map.2 ⟨(k', v), h, rfl⟩)
      simp only [get?, hne, if_false]
      exact ih hn.2 h

theorem get?_eq_some_iff {d : Dict α β} (hn : d.keys.Nodup) {k : α} {v : β} :
    d.get? k = some v ↔ (k, v) ∈ d :=
  ⟨mem_of_get?_eq_some, get?_eq_some_of_mem hn⟩

theorem keys_set (d : Dict α β) (k : α) (v : β) :
    (d.set k v).keys = if k ∈ d.keys then d.keys else d.keys ++ [k] := by
  induction d with
  | nil => simp [set, keys]
  | cons p t ih =>
    obtain ⟨k', v'⟩ := p
    by_cases h : k' = k
    · simp [set, keys, h]
    · have h2 : ¬ k = k' := fun e => h e.symm
      simp only [keys] at ih
      simp only [set, h, if_false, keys, List.map_cons, ih, List.mem_cons, h2, false_or]
      split <;> simp [*]

theorem mem_keys_set (d : Dict α β) (k k' : α) (v : β) :
    k' ∈ (d.set k v).keys ↔ k' = k ∨ k' ∈ d.keys := by
  rw [keys_set]
  split
  · constructor
    · exact Or.inr
    · rintro (rfl | h) <;> assumption
  · simp [or_comm]

theorem nodup_keys_set {d : Dict α β} (hn : d.keys.Nodup) (k : α) (v : β) :
    (d.set k v).keys.Nodup := by
  rw [keys_set]
  split
  · exact hn
  · rename_i h
    rw [List.nodup_append]
    refine ⟨hn, by simp, ?_⟩
    intro a ha b hb
    simp only [List.mem_singleton] at hb
    subst hb
    rintro rfl
    exact h ha

theorem set_of_not_mem {d : Dict α β} {k : α} (h : k ∉ d.keys) (v : β) :
    d.set k v = d ++ [(k, v)] := by
  induction d with
  | nil => simp [set]
  | cons p t ih =>
    obtain ⟨k', v'⟩ := p
    simp only [keys, List.map_cons, List.mem_cons, not_or] at h
    have h2 : ¬ k' = k := fun e => h.1 e.symm
    simp only [set, h2, if_false, ih h.2, List.cons_append]

theorem get?_touch (d : Dict α β) (k k' : α) (dflt : β) :
    (d.touch k dflt).get? k' = if k' = k then some (d.getD k dflt) else d.get? k' := by
  unfold touch getD
  cases h : d.get? k with
  | some v =>
    by_cases h' : k' = k
    · subst h'; simp [h]
    · simp [h']
  | none => simp [get?_set]

theorem getD_set (d : Dict α β) (k k' : α) (v dflt : β) :
    (d.set k v).getD k' dflt = if k' = k then v else d.getD k' dflt := by
  unfold getD
  rw [get?_set]
  split <;> rfl

theorem getD_touch (d : Dict α β) (k k' : α) (dflt : β) :
    (d.touch k dflt).getD k' dflt = d.getD k' dflt := by
  have h := get?_touch d k k' dflt
  unfold getD at *
  rw [h]
  split
  · rename_i h; subst h; simp
  · rfl

theorem nodup_keys_touch {d : Dict α β} (hn : d.keys.Nodup) (k : α) (v : β) :
    (d.touch k v).keys.Nodup := by
  unfold touch
  split
  · exact hn
  · exact nodup_keys_set hn k v

theorem mem_keys_touch (d : Dict α β) (k k' : α) (v : β) :
    k' ∈ (d.touch k v).keys ↔ k' = k ∨ k' ∈ d.keys := by
  unfold touch
  split
  · rename_i h
    constructor
    · exact Or.inr
    · rintro (rfl | h')
      · exact mem_keys_of_get?_eq_some h
      · exact h'
  · exact mem_keys_set d k k' v

theorem get?_append (d e : Dict α β) (k : α) :
    get? (d ++ e) k = (d.get? k).or (e.get? k) := by
  induction d with
  | nil => simp
  | cons p t ih =>
    rw [List.cons_append, get?_cons, get?_cons, ih]
    split <;> simp

end Dict
end PyBox
