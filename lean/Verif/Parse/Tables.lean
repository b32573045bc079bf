import Verif.Parse.Species
import Mathlib.Tactic.Linarith

/-!
# Loss, gain, reactant and rate tables: lemmas
-/

namespace PyBox

/-- `d[a][b]` on a `defaultdict` of dictionaries, without side effect. -/
def cell {α β γ} [DecidableEq α] [DecidableEq β] (d : Dict α (Dict β γ)) (a : α) (b : β) : Option γ :=
  (d.getD a []).get? b

section cell
variable {α β γ : Type _} [DecidableEq α] [DecidableEq β]

theorem getD_set2 (d : Dict α (Dict β γ)) (k1 : α) (k2 : β) (v : γ) (a : α) :
    (set2 d k1 k2 v).getD a [] = if a = k1 then (d.getD k1 []).set k2 v else d.getD a [] := by
  unfold set2
  rw [Dict.getD_set, Dict.getD_touch]

theorem cell_set2 (d : Dict α (Dict β γ)) (k1 : α) (k2 : β) (v : γ) (a : α) (b : β) :
    cell (set2 d k1 k2 v) a b = if a = k1 ∧ b = k2 then some v else cell d a b := by
  unfold cell
  rw [getD_set2]
  by_cases h : a = k1
  · subst h
    simp only [if_true, true_and]
    rw [Dict.get?_set]
  · simp [h]

theorem cell_touch (d : Dict α (Dict β γ)) (k : α) (a : α) (b : β) :
    cell (d.touch k []) a b = cell d a b := by
  unfold cell; rw [Dict.getD_touch]

/-- All inner dictionaries have distinct keys. -/
def InnerNodup (d : Dict α (Dict β γ)) : Prop := ∀ a, (d.getD a []).keys.Nodup

theorem InnerNodup.set2 {d : Dict α (Dict β γ)} (h : InnerNodup d) (k1 : α) (k2 : β) (v : γ) :
    InnerNodup (set2 d k1 k2 v) := by
  intro a
  rw [getD_set2]
  split
  · exact Dict.nodup_keys_set (h k1) _ _
  · exact h a

omit [DecidableEq β] in
theorem InnerNodup.touch {d : Dict α (Dict β γ)} (h : InnerNodup d) (k : α) :
    InnerNodup (d.touch k []) := by
  intro a; rw [Dict.getD_touch]; exact h a

theorem nodup_keys_set2 {d : Dict α (Dict β γ)} (h : d.keys.Nodup) (k1 : α) (k2 : β) (v : γ) :
    (set2 d k1 k2 v).keys.Nodup :=
  Dict.nodup_keys_set (Dict.nodup_keys_touch h _ _) _ _

theorem mem_keys_set2 (d : Dict α (Dict β γ)) (k1 : α) (k2 : β) (v : γ) (a : α) :
    a ∈ (set2 d k1 k2 v).keys ↔ a = k1 ∨ a ∈ d.keys := by
  unfold set2
  rw [Dict.mem_keys_set, Dict.mem_keys_touch]
  tauto

end cell

/-! ### Projections of the equation step -/

/-- Terms that are not photons. -/
def nonHv (ts : List (ℚ × Str)) : List (ℚ × Str) := ts.filter (fun p => p.2 ≠ hv)

theorem nonHv_cons_hv (c : ℚ) (ts : List (ℚ × Str)) : nonHv ((c, hv) :: ts) = nonHv ts := by
  simp [nonHv]

theorem nonHv_cons_ne {c : ℚ} {n : Str} (h : n ≠ hv) (ts : List (ℚ × Str)) :
    nonHv ((c, n) :: ts) = (c, n) :: nonHv ts := by
  simp [nonHv, h]

theorem foldReactants_loss (e : Nat) (rs : List (ℚ × Str)) : ∀ (st : Tables × Nat),
    (rs.foldl (addReactant e) st).1.loss =
      (nonHv rs).foldl (fun d p => lossAdd d p.2 e p.1) st.1.loss := by
  induction rs with
  | nil => intro st; rfl
  | cons p rs ih =>
    intro st
    obtain ⟨c, n⟩ := p
    obtain ⟨t, k⟩ := st
    rw [List.foldl_cons, ih]
    by_cases h : n = hv
    · subst h; rw [nonHv_cons_hv]; simp [addReactant]
    · rw [nonHv_cons_ne h, List.foldl_cons]
      simp only [addReactant, h, if_false, registerSpecies]
      split <;> rfl

theorem foldReactants_gain (e : Nat) (rs : List (ℚ × Str)) : ∀ (st : Tables × Nat),
    (rs.foldl (addReactant e) st).1.gain = st.1.gain := by
  induction rs with
  | nil => intro st; rfl
  | cons p rs ih =>
    intro st
    obtain ⟨c, n⟩ := p
    obtain ⟨t, k⟩ := st
    rw [List.foldl_cons, ih]
    simp only [addReactant, registerSpecies]
    split
    · rfl
    · split <;> rfl

theorem foldReactants_rate (e : Nat) (rs : List (ℚ × Str)) : ∀ (st : Tables × Nat),
    (rs.foldl (addReactant e) st).1.rate = st.1.rate := by
  induction rs with
  | nil => intro st; rfl
  | cons p rs ih =>
    intro st
    obtain ⟨c, n⟩ := p
    obtain ⟨t, k⟩ := st
    rw [List.foldl_cons, ih]
    simp only [addReactant, registerSpecies]
    split
    · rfl
    · split <;> rfl

/-- Update of `rate_dict_reactants` by one reactant. -/
def reactantsAdd (e : Nat) (st : Dict Nat (Dict Nat Str) × Nat) (p : ℚ × Str) :
    Dict Nat (Dict Nat Str) × Nat :=
  if p.2 = hv then (st.1, st.2 + 1) else (set2 st.1 e st.2 p.2, st.2 + 1)

theorem foldReactants_reactants (e : Nat) (rs : List (ℚ × Str)) : ∀ (st : Tables × Nat),
    ((rs.foldl (addReactant e) st).1.reactants, (rs.foldl (addReactant e) st).2) =
      rs.foldl (reactantsAdd e) (st.1.reactants, st.2) := by
  induction rs with
  | nil => intro st; rfl
  | cons p rs ih =>
    intro st
    obtain ⟨c, n⟩ := p
    obtain ⟨t, k⟩ := st
    rw [List.foldl_cons, List.foldl_cons, ih]
    congr 1
    by_cases h : n = hv
    · subst h; simp [addReactant, reactantsAdd]
    · simp only [addReactant, h, if_false, registerSpecies, reactantsAdd]
      split <;> rfl

theorem foldProducts_gain (e : Nat) (last : Str) (ps : List (ℚ × Str)) : ∀ (t : Tables),
    (ps.foldl (addProduct e last) t).gain =
      (nonHv ps).foldl (fun d p => gainAdd d last p.2 e p.1) t.gain := by
  induction ps with
  | nil => intro t; rfl
  | cons p ps ih =>
    intro t
    obtain ⟨c, n⟩ := p
    rw [List.foldl_cons, ih]
    by_cases h : n = hv
    · subst h; rw [nonHv_cons_hv]; simp [addProduct]
    · rw [nonHv_cons_ne h, List.foldl_cons]
      simp only [addProduct, h, if_false, registerSpecies]
      split <;> rfl

theorem foldProducts_frame (e : Nat) (last : Str) (ps : List (ℚ × Str)) : ∀ (t : Tables),
    (ps.foldl (addProduct e last) t).loss = t.loss ∧
    (ps.foldl (addProduct e last) t).rate = t.rate ∧
    (ps.foldl (addProduct e last) t).reactants = t.reactants ∧
    (ps.foldl (addProduct e last) t).stoich = t.stoich := by
  induction ps with
  | nil => intro t; exact ⟨rfl, rfl, rfl, rfl⟩
  | cons p ps ih =>
    intro t
    obtain ⟨c, n⟩ := p
    rw [List.foldl_cons]
    have := ih (addProduct e last t (c, n))
    have h2 : (addProduct e last t (c, n)).loss = t.loss ∧
        (addProduct e last t (c, n)).rate = t.rate ∧
        (addProduct e last t (c, n)).reactants = t.reactants ∧
        (addProduct e last t (c, n)).stoich = t.stoich := by
      simp only [addProduct, registerSpecies]
      split
      · exact ⟨rfl, rfl, rfl, rfl⟩
      · split <;> exact ⟨rfl, rfl, rfl, rfl⟩
    rw [h2.1, h2.2.1, h2.2.2.1, h2.2.2.2] at this
    exact this

theorem addEqn_loss (t : Tables) (e : Nat) (q : RawEqn) :
    (addEqn t e q).loss = (nonHv q.reactants).foldl (fun d p => lossAdd d p.2 e p.1) t.loss := by
  unfold addEqn
  rw [(foldProducts_frame _ _ _ _).1, foldReactants_loss]

theorem addEqn_gain (t : Tables) (e : Nat) (q : RawEqn) :
    (addEqn t e q).gain =
      (nonHv q.products).foldl (fun d p => gainAdd d (lastReactant q) p.2 e p.1) t.gain := by
  unfold addEqn
  rw [foldProducts_gain, foldReactants_gain]

theorem addEqn_rate (t : Tables) (e : Nat) (q : RawEqn) :
    (addEqn t e q).rate = t.rate.set e q.rate := by
  unfold addEqn
  rw [(foldProducts_frame _ _ _ _).2.1, foldReactants_rate]

theorem addEqn_reactants (t : Tables) (e : Nat) (q : RawEqn) :
    (addEqn t e q).reactants = (q.reactants.foldl (reactantsAdd e) (t.reactants, 0)).1 := by
  unfold addEqn
  rw [(foldProducts_frame _ _ _ _).2.2.1]
  have := foldReactants_reactants e q.reactants ({ t with rate := t.rate.set e q.rate }, 0)
  rw [← this]

/-! ### Loss table -/

theorem cell_lossAdd (d : Dict Str (Dict Nat ℚ)) (n : Str) (e : Nat) (c : ℚ) (s : Str) (e' : Nat) :
    cell (lossAdd d n e c) s e' =
      if s = n ∧ e' = e then some ((cell d n e).getD 0 + c) else cell d s e' := by
  unfold lossAdd
  simp only [Dict.getD_touch]
  have hc : (d.getD n []).get? e = cell d n e := rfl
  rw [hc]
  cases h : cell d n e with
  | none => simp only [cell_set2, cell_touch, Option.getD_none, zero_add]
  | some v => simp only [cell_set2, cell_touch, Option.getD_some]

theorem InnerNodup.lossAdd {d : Dict Str (Dict Nat ℚ)} (h : InnerNodup d) (n : Str) (e : Nat) (c : ℚ) :
    InnerNodup (lossAdd d n e c) := by
  unfold PyBox.lossAdd
  dsimp only
  split <;> exact (h.touch n).set2 _ _ _

theorem mem_keys_lossAdd (d : Dict Str (Dict Nat ℚ)) (n : Str) (e : Nat) (c : ℚ) (s : Str) :
    s ∈ (lossAdd d n e c).keys ↔ s = n ∨ s ∈ d.keys := by
  unfold PyBox.lossAdd
  dsimp only
  split <;> rw [mem_keys_set2, Dict.mem_keys_touch] <;> tauto

theorem cell_fold_lossAdd (e : Nat) (rs : List (ℚ × Str)) : ∀ (d : Dict Str (Dict Nat ℚ)) (s : Str)
    (e' : Nat), cell (rs.foldl (fun d p => lossAdd d p.2 e p.1) d) s e' =
      if s ∈ Spec.names rs ∧ e' = e then some ((cell d s e).getD 0 + Spec.coef rs s)
      else cell d s e' := by
  induction rs with
  | nil => intro d s e'; simp [Spec.names]
  | cons p rs ih =>
    intro d s e'
    obtain ⟨c, n⟩ := p
    rw [List.foldl_cons, ih]
    simp only [cell_lossAdd, and_true]
    rw [Spec.coef_cons]
    by_cases hn : s = n
    · subst hn
      by_cases hs : s ∈ Spec.names rs
      · by_cases he : e' = e
        · subst he
          have : s ∈ Spec.names ((c, s) :: rs) := by simp [Spec.names]
          simp [hs, this, add_assoc]
        · simp [he]
      · have hs' : s ∈ Spec.names ((c, s) :: rs) := by simp [Spec.names]
        by_cases he : e' = e
        · subst he
          simp [hs, hs', Spec.coef_of_not_mem hs]
        · simp [he]
    · have hiff : s ∈ Spec.names ((c, n) :: rs) ↔ s ∈ Spec.names rs := by simp [Spec.names, hn]
      have hn' : ¬ n = s := fun h => hn h.symm
      simp [hn, hn', hiff]

theorem innerNodup_fold_lossAdd (e : Nat) (rs : List (ℚ × Str)) : ∀ (d : Dict Str (Dict Nat ℚ)),
    InnerNodup d → InnerNodup (rs.foldl (fun d p => lossAdd d p.2 e p.1) d) := by
  induction rs with
  | nil => intro d h; exact h
  | cons p rs ih => intro d h; exact ih _ (h.lossAdd _ _ _)

theorem mem_keys_fold_lossAdd (e : Nat) (rs : List (ℚ × Str)) : ∀ (d : Dict Str (Dict Nat ℚ)) (s : Str),
    s ∈ (rs.foldl (fun d p => lossAdd d p.2 e p.1) d).keys ↔ s ∈ Spec.names rs ∨ s ∈ d.keys := by
  induction rs with
  | nil => intro d s; simp [Spec.names]
  | cons p rs ih =>
    intro d s
    rw [List.foldl_cons, ih, mem_keys_lossAdd]
    simp only [Spec.names, List.map_cons, List.mem_cons]
    tauto

/-- Total of the non-photon reactant coefficients: entry the loss table must have. -/
def lossEntry (q : RawEqn) (s : Str) : Option ℚ :=
  if s ∈ Spec.names (nonHv q.reactants) then some (Spec.coef (nonHv q.reactants) s) else none

theorem cell_buildFrom_loss (qs : List RawEqn) : ∀ (t : Tables) (e : Nat),
    (∀ s e', e ≤ e' → cell t.loss s e' = none) → ∀ s e',
    cell (buildFrom t e qs).loss s e' =
      if e' < e then cell t.loss s e' else (qs[e' - e]?).bind (fun q => lossEntry q s) := by
  induction qs with
  | nil =>
    intro t e h s e'
    simp only [buildFrom, List.getElem?_nil, Option.bind_none]
    split
    · rfl
    · exact h s e' (by omega)
  | cons q qs ih =>
    intro t e h s e'
    have hcell : ∀ s e', cell (addEqn t e q).loss s e' =
        if e' = e then lossEntry q s else cell t.loss s e' := by
      intro s e'
      rw [addEqn_loss, cell_fold_lossAdd]
      unfold lossEntry
      by_cases he : e' = e
      · subst he
        rw [h s e' (le_refl _)]
        simp
      · simp [he]
    rw [buildFrom, ih]
    · rw [hcell]
      by_cases h1 : e' < e
      · have : e' < e + 1 := by omega
        have hne : ¬ e' = e := by omega
        simp [h1, this, hne]
      · by_cases h2 : e' = e
        · subst h2; simp
        · have h3 : ¬ e' < e + 1 := by omega
          have h4 : e' - e = (e' - (e + 1)) + 1 := by omega
          simp [h1, h3, h4]
    · intro s e' he
      rw [hcell, if_neg (by omega)]
      exact h s e' (by omega)

theorem cell_build_loss (qs : List RawEqn) (s : Str) (e : Nat) :
    cell (build qs).loss s e = (qs[e]?).bind (fun q => lossEntry q s) := by
  unfold build
  rw [cell_buildFrom_loss qs _ 0 (by intro s e' _; rfl)]
  simp

theorem innerNodup_buildFrom_loss (qs : List RawEqn) : ∀ (t : Tables) (e : Nat),
    InnerNodup t.loss → InnerNodup (buildFrom t e qs).loss := by
  induction qs with
  | nil => intro t e h; exact h
  | cons q qs ih =>
    intro t e h
    apply ih
    rw [addEqn_loss]
    exact innerNodup_fold_lossAdd _ _ _ h

theorem innerNodup_build_loss (qs : List RawEqn) : InnerNodup (build qs).loss :=
  innerNodup_buildFrom_loss qs _ _ (by intro a; simp [Dict.getD, Dict.keys])

theorem mem_keys_buildFrom_loss (qs : List RawEqn) : ∀ (t : Tables) (e : Nat) (s : Str),
    s ∈ (buildFrom t e qs).loss.keys ↔
      s ∈ t.loss.keys ∨ ∃ q ∈ qs, s ∈ Spec.names (nonHv q.reactants) := by
  induction qs with
  | nil => intro t e s; simp [buildFrom]
  | cons q qs ih =>
    intro t e s
    rw [buildFrom, ih, addEqn_loss, mem_keys_fold_lossAdd]
    simp only [List.mem_cons, exists_eq_or_imp]
    tauto

theorem mem_keys_build_loss (qs : List RawEqn) (s : Str) :
    s ∈ (build qs).loss.keys ↔ ∃ q ∈ qs, s ∈ Spec.names (nonHv q.reactants) := by
  unfold build; rw [mem_keys_buildFrom_loss]; simp [Dict.keys]

/-! ### Gain table -/

/-- Effect of one product on the entries of the current equation. -/
def gainStep (last : Str) (g : Str → Option ℚ) (p : ℚ × Str) : Str → Option ℚ := fun s =>
  match g last with
  | some _ => if s = p.2 then (g p.2).map (· + p.1) else g s
  | none => if s = p.2 then some p.1 else g s

theorem cell_gainAdd (d : Dict Str (Dict Nat ℚ)) (last n : Str) (e : Nat) (c : ℚ) (s : Str) (e' : Nat) :
    cell (gainAdd d last n e c) s e' =
      if e' = e then gainStep last (fun s => cell d s e) (c, n) s else cell d s e' := by
  unfold gainAdd gainStep
  simp only [Dict.getD_touch]
  have hc : ∀ k, (d.getD k []).get? e = cell d k e := fun _ => rfl
  rw [hc, hc]
  cases h : cell d last e with
  | none =>
    simp only [cell_set2, cell_touch]
    by_cases he : e' = e
    · subst he; simp
    · simp [he]
  | some v =>
    cases h2 : cell d n e with
    | none =>
      simp only [cell_touch, Option.map_none]
      by_cases he : e' = e
      · subst he
        by_cases hs : s = n
        · subst hs; simp [h2]
        · simp [hs]
      · simp [he]
    | some w =>
      simp only [cell_set2, cell_touch, Option.map_some]
      by_cases he : e' = e
      · subst he; simp
      · simp [he]

theorem cell_fold_gainAdd (e : Nat) (last : Str) (ps : List (ℚ × Str)) :
    ∀ (d : Dict Str (Dict Nat ℚ)) (s : Str) (e' : Nat),
    cell (ps.foldl (fun d p => gainAdd d last p.2 e p.1) d) s e' =
      if e' = e then ps.foldl (gainStep last) (fun s => cell d s e) s else cell d s e' := by
  induction ps with
  | nil => intro d s e'; by_cases h : e' = e <;> simp [h]
  | cons p ps ih =>
    intro d s e'
    rw [List.foldl_cons, ih, List.foldl_cons]
    by_cases h : e' = e
    · subst h
      simp only [if_true]
      have hf : (fun s => cell (gainAdd d last p.2 e' p.1) s e') =
          gainStep last (fun s => cell d s e') p := by
        funext s
        rw [cell_gainAdd]; simp
      rw [hf]
    · simp only [h, if_false]
      rw [cell_gainAdd]; simp [h]

/-- Entry the gain table receives for a species of one equation. -/
def gainEntry (q : RawEqn) : Str → Option ℚ :=
  (nonHv q.products).foldl (gainStep (lastReactant q)) (fun _ => none)

theorem cell_buildFrom_gain (qs : List RawEqn) : ∀ (t : Tables) (e : Nat),
    (∀ s e', e ≤ e' → cell t.gain s e' = none) → ∀ s e',
    cell (buildFrom t e qs).gain s e' =
      if e' < e then cell t.gain s e' else (qs[e' - e]?).bind (fun q => gainEntry q s) := by
  induction qs with
  | nil =>
    intro t e h s e'
    simp only [buildFrom, List.getElem?_nil, Option.bind_none]
    split
    · rfl
    · exact h s e' (by omega)
  | cons q qs ih =>
    intro t e h s e'
    have hcell : ∀ s e', cell (addEqn t e q).gain s e' =
        if e' = e then gainEntry q s else cell t.gain s e' := by
      intro s e'
      rw [addEqn_gain, cell_fold_gainAdd]
      have : (fun s => cell t.gain s e) = fun _ => none := by
        funext s; exact h s e (le_refl _)
      rw [this]
      rfl
    rw [buildFrom, ih]
    · rw [hcell]
      by_cases h1 : e' < e
      · have : e' < e + 1 := by omega
        have hne : ¬ e' = e := by omega
        simp [h1, this, hne]
      · by_cases h2 : e' = e
        · subst h2; simp
        · have h3 : ¬ e' < e + 1 := by omega
          have h4 : e' - e = (e' - (e + 1)) + 1 := by omega
          simp [h1, h3, h4]
    · intro s e' he
      rw [hcell, if_neg (by omega)]
      exact h s e' (by omega)

theorem cell_build_gain (qs : List RawEqn) (s : Str) (e : Nat) :
    cell (build qs).gain s e = (qs[e]?).bind (fun q => gainEntry q s) := by
  unfold build
  rw [cell_buildFrom_gain qs _ 0 (by intro s e' _; rfl)]
  simp

theorem InnerNodup.gainAdd {d : Dict Str (Dict Nat ℚ)} (h : InnerNodup d) (last n : Str) (e : Nat)
    (c : ℚ) : InnerNodup (gainAdd d last n e c) := by
  unfold PyBox.gainAdd
  dsimp only
  split
  · split
    · exact ((h.touch _).touch _).set2 _ _ _
    · exact (h.touch _).touch _
  · exact (h.touch _).set2 _ _ _

theorem innerNodup_buildFrom_gain (qs : List RawEqn) : ∀ (t : Tables) (e : Nat),
    InnerNodup t.gain → InnerNodup (buildFrom t e qs).gain := by
  induction qs with
  | nil => intro t e h; exact h
  | cons q qs ih =>
    intro t e h
    apply ih
    rw [addEqn_gain]
    generalize nonHv q.products = ps
    revert h
    generalize t.gain = d
    intro h
    induction ps generalizing d with
    | nil => exact h
    | cons p ps ih2 => exact ih2 _ (h.gainAdd _ _ _ _)

theorem innerNodup_build_gain (qs : List RawEqn) : InnerNodup (build qs).gain :=
  innerNodup_buildFrom_gain qs _ _ (by intro a; simp [Dict.getD, Dict.keys])

theorem mem_keys_gainAdd (d : Dict Str (Dict Nat ℚ)) (last n : Str) (e : Nat) (c : ℚ) (s : Str) :
    s ∈ (gainAdd d last n e c).keys ↔ s = last ∨ s = n ∨ s ∈ d.keys := by
  unfold PyBox.gainAdd
  dsimp only
  split
  · split
    · rw [mem_keys_set2, Dict.mem_keys_touch, Dict.mem_keys_touch]; tauto
    · rw [Dict.mem_keys_touch, Dict.mem_keys_touch]; tauto
  · rw [mem_keys_set2, Dict.mem_keys_touch]; tauto

theorem mem_keys_fold_gainAdd (e : Nat) (last : Str) (ps : List (ℚ × Str)) :
    ∀ (d : Dict Str (Dict Nat ℚ)) (s : Str),
    s ∈ (ps.foldl (fun d p => gainAdd d last p.2 e p.1) d).keys ↔
      (ps ≠ [] ∧ s = last) ∨ s ∈ Spec.names ps ∨ s ∈ d.keys := by
  induction ps with
  | nil => intro d s; simp [Spec.names]
  | cons p ps ih =>
    intro d s
    rw [List.foldl_cons, ih, mem_keys_gainAdd]
    simp only [Spec.names, List.map_cons, List.mem_cons, ne_eq, reduceCtorEq, not_false_iff, true_and]
    tauto

theorem mem_keys_buildFrom_gain (qs : List RawEqn) : ∀ (t : Tables) (e : Nat) (s : Str),
    s ∈ (buildFrom t e qs).gain.keys ↔ s ∈ t.gain.keys ∨
      ∃ q ∈ qs, (nonHv q.products ≠ [] ∧ s = lastReactant q) ∨ s ∈ Spec.names (nonHv q.products) := by
  induction qs with
  | nil => intro t e s; simp [buildFrom]
  | cons q qs ih =>
    intro t e s
    rw [buildFrom, ih, addEqn_gain, mem_keys_fold_gainAdd]
    simp only [List.mem_cons, exists_eq_or_imp]
    simp only [or_assoc, or_left_comm]

theorem mem_keys_build_gain (qs : List RawEqn) (s : Str) :
    s ∈ (build qs).gain.keys ↔
      ∃ q ∈ qs, (nonHv q.products ≠ [] ∧ s = lastReactant q) ∨ s ∈ Spec.names (nonHv q.products) := by
  unfold build; rw [mem_keys_buildFrom_gain]; simp [Dict.keys]

/-! ### Rate table -/

theorem get?_buildFrom_rate (qs : List RawEqn) : ∀ (t : Tables) (e : Nat),
    (∀ e', e ≤ e' → t.rate.get? e' = none) → ∀ e',
    (buildFrom t e qs).rate.get? e' =
      if e' < e then t.rate.get? e' else (qs[e' - e]?).map (·.rate) := by
  induction qs with
  | nil =>
    intro t e h e'
    simp only [buildFrom, List.getElem?_nil, Option.map_none]
    split
    · rfl
    · exact h e' (by omega)
  | cons q qs ih =>
    intro t e h e'
    have hg : ∀ e', (addEqn t e q).rate.get? e' = if e' = e then some q.rate else t.rate.get? e' := by
      intro e'; rw [addEqn_rate, Dict.get?_set]
    rw [buildFrom, ih]
    · rw [hg]
      by_cases h1 : e' < e
      · have : e' < e + 1 := by omega
        have hne : ¬ e' = e := by omega
        simp [h1, this, hne]
      · by_cases h2 : e' = e
        · subst h2; simp
        · have h3 : ¬ e' < e + 1 := by omega
          have h4 : e' - e = (e' - (e + 1)) + 1 := by omega
          simp [h1, h3, h4]
    · intro e' he
      rw [hg, if_neg (by omega)]
      exact h e' (by omega)

theorem get?_build_rate (qs : List RawEqn) (e : Nat) :
    (build qs).rate.get? e = (qs[e]?).map (·.rate) := by
  unfold build
  rw [get?_buildFrom_rate qs _ 0 (by intro e' _; rfl)]
  simp

theorem keys_buildFrom_rate (qs : List RawEqn) : ∀ (t : Tables) (e : Nat),
    t.rate.keys = List.range e → (buildFrom t e qs).rate.keys = List.range (e + qs.length) := by
  induction qs with
  | nil => intro t e h; exact h
  | cons q qs ih =>
    intro t e h
    rw [buildFrom, ih]
    · congr 1; simp; omega
    · rw [addEqn_rate, Dict.keys_set, h]
      simp [List.range_succ]

theorem keys_build_rate (qs : List RawEqn) : (build qs).rate.keys = List.range qs.length := by
  have := keys_buildFrom_rate qs {} 0 rfl
  simpa [build] using this

/-! ### Reactants table -/

/-- Entry of `rate_dict_reactants` for one equation: positions and names of non-photons. -/
def reactantItems : Nat → List (ℚ × Str) → Dict Nat Str
  | _, [] => []
  | k, p :: rs => if p.2 = hv then reactantItems (k + 1) rs else (k, p.2) :: reactantItems (k + 1) rs

theorem reactantItems_values (rs : List (ℚ × Str)) : ∀ k,
    (reactantItems k rs).values = Spec.names (nonHv rs) := by
  induction rs with
  | nil => intro k; rfl
  | cons p rs ih =>
    intro k
    obtain ⟨c, n⟩ := p
    by_cases h : n = hv
    · subst h; rw [nonHv_cons_hv]; simp only [reactantItems, if_true]; exact ih _
    · rw [nonHv_cons_ne h]
      simp only [reactantItems, h, if_false]
      have := ih (k + 1)
      simp only [Dict.values, Spec.names] at *
      simp [this]

theorem fold_reactantsAdd (e : Nat) (rs : List (ℚ × Str)) :
    ∀ (d : Dict Nat (Dict Nat Str)) (k : Nat), (∀ i ∈ (d.getD e []).keys, i < k) → ∀ e',
    (rs.foldl (reactantsAdd e) (d, k)).1.getD e' [] =
      if e' = e then d.getD e [] ++ reactantItems k rs else d.getD e' [] := by
  induction rs with
  | nil => intro d k _ e'; by_cases h : e' = e <;> simp [h, reactantItems]
  | cons p rs ih =>
    intro d k hk e'
    obtain ⟨c, n⟩ := p
    rw [List.foldl_cons]
    by_cases h : n = hv
    · subst h
      have h0 : reactantsAdd e (d, k) (c, hv) = (d, k + 1) := by simp [reactantsAdd]
      rw [h0, ih d (k + 1) (fun i hi => by have := hk i hi; omega)]
      simp [reactantItems]
    · have h0 : reactantsAdd e (d, k) (c, n) = (set2 d e k n, k + 1) := by simp [reactantsAdd, h]
      have hset : (d.getD e []).set k n = d.getD e [] ++ [(k, n)] :=
        Dict.set_of_not_mem (fun hm => absurd (hk k hm) (lt_irrefl _)) n
      have hget : (set2 d e k n).getD e [] = d.getD e [] ++ [(k, n)] := by
        rw [getD_set2, if_pos rfl, hset]
      rw [h0, ih]
      · by_cases he : e' = e
        · subst he
          simp only [if_true, hget, reactantItems, h, if_false]
          simp
        · simp only [he, if_false]
          rw [getD_set2, if_neg he]
      · intro i hi
        rw [hget] at hi
        simp only [Dict.keys, List.map_append, List.map_cons, List.map_nil, List.mem_append,
          List.mem_singleton] at hi
        rcases hi with hi | rfl
        · have := hk i hi; omega
        · omega

theorem getD_buildFrom_reactants (qs : List RawEqn) : ∀ (t : Tables) (e : Nat),
    (∀ e', e ≤ e' → t.reactants.getD e' [] = []) → ∀ e',
    (buildFrom t e qs).reactants.getD e' [] =
      if e' < e then t.reactants.getD e' []
      else ((qs[e' - e]?).map (fun q => reactantItems 0 q.reactants)).getD [] := by
  induction qs with
  | nil =>
    intro t e h e'
    simp only [buildFrom, List.getElem?_nil, Option.map_none, Option.getD_none]
    split
    · rfl
    · exact h e' (by omega)
  | cons q qs ih =>
    intro t e h e'
    have hg : ∀ e', (addEqn t e q).reactants.getD e' [] =
        if e' = e then reactantItems 0 q.reactants else t.reactants.getD e' [] := by
      intro e'
      rw [addEqn_reactants, fold_reactantsAdd]
      · rw [h e (le_refl _)]; rfl
      · rw [h e (le_refl _)]; simp [Dict.keys]
    rw [buildFrom, ih]
    · rw [hg]
      by_cases h1 : e' < e
      · have : e' < e + 1 := by omega
        have hne : ¬ e' = e := by omega
        simp [h1, this, hne]
      · by_cases h2 : e' = e
        · subst h2; simp
        · have h3 : ¬ e' < e + 1 := by omega
          have h4 : e' - e = (e' - (e + 1)) + 1 := by omega
          simp [h1, h3, h4]
    · intro e' he
      rw [hg, if_neg (by omega)]
      exact h e' (by omega)

theorem getD_build_reactants (qs : List RawEqn) (e : Nat) :
    (build qs).reactants.getD e [] = ((qs[e]?).map (fun q => reactantItems 0 q.reactants)).getD [] := by
  unfold build
  rw [getD_buildFrom_reactants qs _ 0 (by intro e' _; rfl)]
  simp

end PyBox
