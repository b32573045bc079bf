import Verif.Sim.Chart
import Verif.Props.AerosolPresence

/-!
# C80: the bar charts show the composition of the bins
-/

namespace PyBox

open Spec Aerosol

namespace Spec

/-- Mass of the `j`-th condensing species in bin `b` [microgram/m3] when all `n` gases condense. -/
noncomputable def slotMass (y : ℕ → ℝ) (n : ℕ) (mw : ℕ → ℝ) (na : ℝ) (b j : ℕ) : ℝ :=
  y (n + b * n + j) / na * mw j * 10 ^ 12

/-- Bars given by bottom and height, stacked without gap or overlap from `low` to `high`. -/
inductive Stacked : ℝ → List (Option ℝ × Option ℝ) → ℝ → Prop
  | nil (a : ℝ) : Stacked a [] a
  | cons {a h c : ℝ} {l : List (Option ℝ × Option ℝ)} (hh : 0 ≤ h) (hl : Stacked (a + h) l c) :
      Stacked a ((some a, some h) :: l) c

/-- The bar of species `j` in bin `b`. -/
def Chart.bar (c : Chart) (j b : ℕ) : Option (Option ℝ × Option ℝ) := (c.bars[j]?).bind (·[b]?)

/-- The bars in bin `b`. -/
def Chart.binBars (c : Chart) (b : ℕ) : List (Option ℝ × Option ℝ) := c.bars.filterMap (·[b]?)

/-- The chart of one state: `m b j` is the mass of species `j` of `n` in bin `b`. -/
structure Shows (c : Chart) (m : ℕ → ℕ → ℝ) (n numBins : ℕ) : Prop where
  /-- the title is the mass of all of them -/
  title : c.title = ∑ b ∈ Finset.range numBins, ∑ j ∈ Finset.range n, m b j
  /-- one row of bars for each species -/
  length : c.bars.length = n
  /-- a bin with any of them is filled from zero to one -/
  stacked : ∀ b < numBins, 0 < ∑ j ∈ Finset.range n, m b j → Stacked 0 (Chart.binBars c b) 1
  /-- every bar is as high as the share of its species -/
  share : ∀ b < numBins, 0 < ∑ j ∈ Finset.range n, m b j → ∀ j < n, ∃ low,
    Chart.bar c j b = some (some low, some (m b j / ∑ k ∈ Finset.range n, m b k))
  /-- no bar in an empty bin has a height -/
  empty : ∀ b < numBins, ∑ j ∈ Finset.range n, m b j = 0 → ∀ j < n, ∃ low, Chart.bar c j b = some (low, none)
  /-- no bars anywhere else -/
  nothing : ∀ b, numBins ≤ b → ∀ j, Chart.bar c j b = none

end Spec

/-! ## Columns -/

theorem massColumn_eq {y : List ℝ} {n : ℕ} {molw : List ℝ} (hm : molw.length = n) (na : ℝ) {b : ℕ}
    (hy : n + (b + 1) * n ≤ y.length) : massColumn y n molw na b = .ok ((List.range (n - 1)).map (fun j =>
      max 0 (slotMass (fun i => y.getD i 0) n (fun j => molw.getD j 0) na b j))) := by
  unfold massColumn
  have hlen : ((y.take (n + (b + 1) * n)).drop (n + b * n)).length = n := by
    rw [List.length_drop, List.length_take, min_eq_left hy, Nat.add_mul, Nat.one_mul]
    omega
  dsimp only
  unfold elementwise
  rw [if_pos (by rw [List.length_map, hlen, hm])]
  simp only [bind, Except.bind, pure, Except.pure, Except.ok.injEq]
  refine List.ext_getElem ?_ fun j h1 h2 => ?_
  · simp only [List.length_map, List.length_take, List.length_zipWith, hm, hlen, List.length_range]
    omega
  · rw [List.length_map, List.length_range] at h2
    have hj : j < molw.length := by omega
    have hj' : n + b * n + j < y.length := by
      rw [Nat.add_mul, Nat.one_mul] at hy
      omega
    have e1 : y.getD (n + b * n + j) 0 = y[n + b * n + j] := by
      rw [List.getD_eq_getElem?_getD, List.getElem?_eq_getElem hj', Option.getD_some]
    have e2 : molw.getD j 0 = molw[j] := by
      rw [List.getD_eq_getElem?_getD, List.getElem?_eq_getElem hj, Option.getD_some]
    simp only [List.getElem_take, List.getElem_map, List.getElem_zipWith, List.getElem_drop, List.getElem_range,
      slotMass, e1, e2]
    rw [show (10 : ℝ) ^ 12 = 1000000000000 by norm_num]
    split
    · rw [max_eq_left (by linarith)]
    · rw [max_eq_right (by linarith)]

theorem sum_map_range (f : ℕ → ℝ) (n : ℕ) : ((List.range n).map f).sum = ∑ j ∈ Finset.range n, f j := by
  induction n with
  | zero => rfl
  | succ n ih => rw [List.range_succ, List.map_append, List.sum_append, ih, Finset.sum_range_succ]; simp

theorem asColumn_eq {α : Type} {n : ℕ} {v : List α} (h : v.length = n) : asColumn n v = .ok v := if_pos h

theorem mapM_range_ok {α : Type} (f : ℕ → Except PyErr α) (g : ℕ → α) (n : ℕ) (h : ∀ k < n, f k = .ok (g k)) :
    (List.range n).mapM f = .ok ((List.range n).map g) := by
  have : ∀ l : List ℕ, (∀ k ∈ l, k < n) → l.mapM f = .ok (l.map g) := by
    intro l
    induction l with
    | nil => intro _; rfl
    | cons a l ih =>
      intro hl
      rw [List.mapM_cons, h a (hl a List.mem_cons_self), ih fun k hk => hl k (List.mem_cons_of_mem _ hk)]
      rfl
  exact this _ fun k hk => List.mem_range.1 hk

/-! ## Bars -/

/-- Sum of the first entries, `nan` if one of them is. -/
def sumNan (f : ℕ → Option ℝ) : ℕ → Option ℝ
  | 0 => some 0
  | k + 1 => addNan (sumNan f k) (f k)

theorem drawBars_eq (norm : ℕ → ℕ → Option ℝ) (numOrg numBins : ℕ) : drawBars norm numOrg numBins =
    (List.range numOrg).map (fun org => (List.range numBins).map (fun b =>
      (sumNan (fun k => norm k b) org, norm org b))) := by
  unfold drawBars
  suffices h : ∀ k, (List.range k).foldl (fun (st : (ℕ → Option ℝ) × List (List (Option ℝ × Option ℝ))) org =>
      if org = 0 then (st.1, st.2 ++ [(List.range numBins).map (fun b => (some 0, norm org b))])
      else
        let cummulative := fun b => addNan (st.1 b) (norm (org - 1) b)
        (cummulative, st.2 ++ [(List.range numBins).map (fun b => (cummulative b, norm org b))]))
      (fun _ => some 0, []) = ((fun b => sumNan (fun k => norm k b) (k - 1)),
        (List.range k).map (fun org => (List.range numBins).map (fun b =>
          (sumNan (fun k => norm k b) org, norm org b)))) by
    rw [h]
  intro k
  induction k with
  | zero => rfl
  | succ k ih =>
    rw [List.range_succ, List.foldl_append, ih, List.foldl_cons, List.foldl_nil, List.map_append, List.map_singleton]
    cases k with
    | zero => rfl
    | succ k => rfl

theorem sumNan_some (f : ℕ → ℝ) (k : ℕ) : sumNan (fun j => some (f j)) k = some (∑ j ∈ Finset.range k, f j) := by
  induction k with
  | zero => simp [sumNan]
  | succ k ih =>
    rw [sumNan, ih, Finset.sum_range_succ]
    rfl

theorem sumNan_congr {f g : ℕ → Option ℝ} {n k : ℕ} (h : ∀ j < n, f j = g j) (hk : k ≤ n) :
    sumNan f k = sumNan g k := by
  induction k with
  | zero => rfl
  | succ k ih => rw [sumNan, sumNan, ih (by omega), h k (by omega)]

theorem stacked_sums (f : ℕ → ℝ) (n k : ℕ) (hf : ∀ j < n, 0 ≤ f j) (hk : k ≤ n) :
    Stacked (∑ j ∈ Finset.range (n - k), f j) ((List.range k).map (fun i =>
      (some (∑ j ∈ Finset.range (n - k + i), f j), some (f (n - k + i))))) (∑ j ∈ Finset.range n, f j) := by
  induction k with
  | zero => exact .nil _
  | succ k ih =>
    rw [List.range_succ_eq_map, List.map_cons]
    refine Stacked.cons (hf _ (by omega)) ?_
    have e : n - (k + 1) + 1 = n - k := by omega
    rw [show n - (k + 1) + 0 = n - (k + 1) from rfl, ← Finset.sum_range_succ, e, List.map_map]
    have := ih (by omega)
    convert this using 2
    funext i
    simp only [Function.comp]
    rw [show n - (k + 1) + Nat.succ i = n - k + i by omega]

theorem drawChart_shows {y : List ℝ} {n numBins : ℕ} {molw : List ℝ} (hn : 0 < n) (hm : molw.length = n) (na : ℝ)
    (hy : n + numBins * n ≤ y.length) : ∃ c, drawChart y n numBins molw na = .ok c ∧ Shows c
      (fun b j => max 0 (slotMass (fun i => y.getD i 0) n (fun j => molw.getD j 0) na b j)) (n - 1) numBins := by
  set m : ℕ → ℕ → ℝ := fun b j => max 0 (slotMass (fun i => y.getD i 0) n (fun j => molw.getD j 0) na b j) with hmdef
  have hm0 : ∀ b j, 0 ≤ m b j := fun b j => le_max_left _ _
  have hsum : ∀ b, ((List.range (n - 1)).map (m b)).sum = ∑ j ∈ Finset.range (n - 1), m b j := fun b =>
    sum_map_range _ _
  have hcols : (List.range numBins).mapM (fun size => do
      let mass ← massColumn y n molw na size
      let a ← asColumn (n - 1) mass
      let b ← asColumn (n - 1) (normColumn mass)
      return (a, b)) = .ok ((List.range numBins).map (fun b =>
        ((List.range (n - 1)).map (m b), normColumn ((List.range (n - 1)).map (m b))))) := by
    refine mapM_range_ok _ _ _ fun b hb => ?_
    have hb' : n + (b + 1) * n ≤ y.length := by
      have := Nat.mul_le_mul_right n (show b + 1 ≤ numBins from hb)
      omega
    rw [massColumn_eq hm na hb']
    simp only [bind, Except.bind, pure, Except.pure]
    rw [asColumn_eq (by simp), asColumn_eq (by simp [normColumn])]
  unfold drawChart
  rw [if_neg (by omega), hcols]
  refine ⟨_, rfl, ?_⟩
  have hnorm : ∀ b < numBins, ∀ j < n - 1, ((((List.range numBins).map (fun b =>
        ((List.range (n - 1)).map (m b), normColumn ((List.range (n - 1)).map (m b)))))[b]?).bind
          (fun c => c.2[j]?)).join =
      if ∑ k ∈ Finset.range (n - 1), m b k = 0 then none else some (m b j / ∑ k ∈ Finset.range (n - 1), m b k) := by
    intro b hb j hj
    rw [List.getElem?_map, List.getElem?_range hb]
    simp only [Option.map_some, Option.bind_some, normColumn, hsum]
    rw [List.getElem?_map, List.getElem?_map, List.getElem?_range hj]
    rfl
  have hbar : ∀ j < n - 1, ∀ b < numBins, Chart.bar ⟨((((List.range numBins).map (fun b =>
        ((List.range (n - 1)).map (m b), normColumn ((List.range (n - 1)).map (m b)))))).map (fun c => c.1.sum)).sum,
        drawBars (fun org b => ((((List.range numBins).map (fun b =>
        ((List.range (n - 1)).map (m b), normColumn ((List.range (n - 1)).map (m b)))))[b]?).bind
          (fun c => c.2[org]?)).join) (n - 1) numBins⟩ j b =
      some (sumNan (fun k => if ∑ k ∈ Finset.range (n - 1), m b k = 0 then none
          else some (m b k / ∑ k ∈ Finset.range (n - 1), m b k)) j,
        if ∑ k ∈ Finset.range (n - 1), m b k = 0 then none else some (m b j / ∑ k ∈ Finset.range (n - 1), m b k)) := by
    intro j hj b hb
    unfold Chart.bar
    dsimp only
    rw [drawBars_eq, List.getElem?_map, List.getElem?_range hj, Option.map_some, Option.bind_some, List.getElem?_map,
      List.getElem?_range hb, Option.map_some, hnorm b hb j hj,
      sumNan_congr (fun k hk => hnorm b hb k hk) (show j ≤ n - 1 by omega)]
  constructor
  · dsimp only
    rw [List.map_map, ← sum_map_range]
    refine congrArg List.sum (List.map_congr_left fun b _ => ?_)
    exact hsum b
  · dsimp only
    rw [drawBars_eq]
    simp
  · intro b hb hpos
    have hfill : ∑ j ∈ Finset.range (n - 1), m b j / ∑ k ∈ Finset.range (n - 1), m b k = 1 := by
      rw [← Finset.sum_div, div_self hpos.ne']
    have := stacked_sums (fun j => m b j / ∑ k ∈ Finset.range (n - 1), m b k) (n - 1) (n - 1)
      (fun j _ => div_nonneg (hm0 b j) hpos.le) le_rfl
    rw [hfill, Nat.sub_self, Finset.range_zero, Finset.sum_empty] at this
    convert this using 1
    unfold Chart.binBars
    dsimp only
    rw [drawBars_eq, List.filterMap_map]
    refine Eq.trans (List.filterMap_congr fun j hj => ?_) (congrFun List.filterMap_eq_map _)
    have hj' := List.mem_range.1 hj
    simp only [Function.comp]
    rw [List.getElem?_map, List.getElem?_range hb, Option.map_some, hnorm b hb j hj',
      sumNan_congr (fun k hk => hnorm b hb k hk) (show j ≤ n - 1 by omega)]
    simp only [if_neg hpos.ne', sumNan_some, Nat.zero_add]
  · intro b hb hpos j hj
    refine ⟨∑ i ∈ Finset.range j, m b i / ∑ k ∈ Finset.range (n - 1), m b k, (hbar j hj b hb).trans ?_⟩
    simp only [if_neg hpos.ne', sumNan_some]
  · intro b hb h0 j hj
    rw [hbar j hj b hb]
    simp only [if_pos h0]
    exact ⟨_, rfl⟩
  · intro b hb j
    unfold Chart.bar
    dsimp only
    rw [drawBars_eq, List.getElem?_map]
    cases (List.range (n - 1))[j]? with
    | none => rfl
    | some x =>
      rw [Option.map_some, Option.bind_some, List.getElem?_map, List.getElem?_eq_none (by simpa using hb)]
      rfl

/-! ## All charts -/

section

variable {L : Aerosol.Layout} {C : AeroConst}

theorem weights_ok (hL : ∀ i ∈ L.incl, i < L.numCond) :
    L.incl.mapM (fun i => if i < L.numCond then Except.ok (C.mw i) else .error .index) =
      (.ok (L.incl.map C.mw) : Except PyErr (List ℝ)) := by
  generalize L.incl = l at *
  induction l with
  | nil => rfl
  | cons a l ih =>
    rw [List.mapM_cons, if_pos (hL a List.mem_cons_self), ih fun i hi => hL i (List.mem_cons_of_mem _ hi)]
    rfl

theorem weights_error {i : ℕ} (hi : i ∈ L.incl) (h : L.numCond ≤ i) :
    L.incl.mapM (fun i => if i < L.numCond then Except.ok (C.mw i) else .error .index) =
      (.error .index : Except PyErr (List ℝ)) := by
  generalize L.incl = l at *
  induction l with
  | nil => cases hi
  | cons a l ih =>
    rw [List.mapM_cons]
    by_cases ha : a < L.numCond
    · rw [if_pos ha]
      have : i ∈ l := by
        rcases List.mem_cons.1 hi with rfl | h'
        · omega
        · exact h'
      rw [ih this]
      rfl
    · rw [if_neg ha]
      rfl

/-- Index of the entries of a good layout in which everything condenses. -/
theorem incl_range (hL : GoodLayout L) (hsorted : L.incl.Pairwise (· < ·)) (hall : L.numCond = L.numSpecies) :
    L.incl = List.range L.numCond := by
  refine List.Perm.eq_of_pairwise (le := (· < ·)) (fun a b _ _ h1 h2 => absurd h1 (lt_asymm h2)) hsorted
    List.pairwise_lt_range ?_
  refine (List.subperm_of_subset hsorted.nodup fun i hi => List.mem_range.2 ?_).perm_of_length_le ?_
  · rw [hall]; exact hL.valid i hi
  · rw [List.length_range, hL.len]

/-- C80: the charts of a simulation in which all species condense show the masses in each bin, with negative ones set to
zero. -/
theorem C80_charts (hcond : 0 < L.numCond) (hincl : L.incl = List.range L.numCond) {times : List ℚ}
    {rows : List (List ℝ)} (hrows : times.length ≤ rows.length)
    (hlen : ∀ y ∈ rows, y.length = L.numCond + L.numBins * L.numCond) :
    ∃ charts, chartsOf L C times rows = .ok charts ∧ charts.length = times.length ∧
      ∀ (k : ℕ) (c : Chart) (y : List ℝ), charts[k]? = some c → rows[k]? = some y → Shows c
        (fun b j => max 0 (slotMass (fun i => y.getD i 0) L.numCond C.mw C.na b j)) (L.numCond - 1) L.numBins := by
  have hmw : (L.incl.map C.mw).length = L.numCond := by rw [hincl]; simp
  have hget : ∀ j < L.numCond, (L.incl.map C.mw).getD j 0 = C.mw j := by
    intro j hj
    rw [hincl, List.getD_eq_getElem?_getD, List.getElem?_map, List.getElem?_range hj]
    rfl
  have hone : ∀ k, ∃ c, k < times.length → (match rows[k]? with
      | none => Except.error PyErr.index
      | some y => drawChart y L.numCond L.numBins (L.incl.map C.mw) C.na) = .ok c ∧ ∀ y : List ℝ, rows[k]? = some y → Shows c
        (fun b j => max 0 (slotMass (fun i => y.getD i 0) L.numCond C.mw C.na b j)) (L.numCond - 1) L.numBins := by
    intro k
    by_cases hk : k < times.length
    swap
    · exact ⟨⟨0, []⟩, fun h => absurd h hk⟩
    have hk' : k < rows.length := by omega
    rw [List.getElem?_eq_getElem hk']
    obtain ⟨c, h1, h2⟩ := drawChart_shows (y := rows[k]) (numBins := L.numBins) hcond hmw C.na
      (hlen _ (List.getElem_mem hk')).ge
    refine ⟨c, fun _ => ⟨h1, fun y hy => ?_⟩⟩
    obtain rfl := Option.some.inj hy
    have e : ∀ b, ∀ j < L.numCond - 1, slotMass (fun i => rows[k].getD i 0) L.numCond
        (fun j => (L.incl.map C.mw).getD j 0) C.na b j = slotMass (fun i => rows[k].getD i 0) L.numCond C.mw C.na b j := by
      intro b j hj
      unfold slotMass
      dsimp only
      rw [hget j (by omega)]
    have es : ∀ b, ∑ j ∈ Finset.range (L.numCond - 1), max 0 (slotMass (fun i => rows[k].getD i 0) L.numCond
        (fun j => (L.incl.map C.mw).getD j 0) C.na b j) = ∑ j ∈ Finset.range (L.numCond - 1),
          max 0 (slotMass (fun i => rows[k].getD i 0) L.numCond C.mw C.na b j) := fun b =>
      Finset.sum_congr rfl fun j hj => by rw [e b j (Finset.mem_range.1 hj)]
    refine ⟨?_, h2.length, fun b hb h => h2.stacked b hb (by rw [es]; exact h), fun b hb h j hj => ?_,
      fun b hb h => h2.empty b hb (by rw [es]; exact h), h2.nothing⟩
    · rw [h2.title]
      exact Finset.sum_congr rfl fun b _ => es b
    · obtain ⟨low, hlow⟩ := h2.share b hb (by rw [es]; exact h) j hj
      rw [es, e b j hj] at hlow
      exact ⟨low, hlow⟩
  choose g hg using hone
  refine ⟨(List.range times.length).map g, ?_, by simp, fun k c y hc hy => ?_⟩
  · unfold chartsOf
    rw [weights_ok (by rw [hincl]; exact fun i hi => List.mem_range.1 hi)]
    exact mapM_range_ok _ g _ fun k hk => (hg k hk).1
  · rw [List.getElem?_map] at hc
    by_cases hk : k < times.length
    · rw [List.getElem?_range hk] at hc
      cases hc
      exact (hg k hk).2 y hy
    · rw [List.getElem?_eq_none (by simpa using hk)] at hc
      cases hc

/-- C80: if a species does not condense, no chart is drawn: the call looks up the weight of a condensing species by its
place among the gases. -/
theorem C80_excluded (hwater : L.numSpecies - 1 ∈ L.incl) (h : L.numCond < L.numSpecies) (times : List ℚ)
    (rows : List (List ℝ)) : chartsOf L C times rows = .error .index := by
  unfold chartsOf
  rw [weights_error hwater (by omega)]
  rfl

/-- C80: charts are drawn exactly if all species condense. -/
theorem C80_exact (hL : GoodLayout L) (hsorted : L.incl.Pairwise (· < ·)) (hwater : L.numSpecies - 1 ∈ L.incl)
    {times : List ℚ} {rows : List (List ℝ)} (hrows : times.length ≤ rows.length)
    (hlen : ∀ y ∈ rows, y.length = L.numSpecies + L.numBins * L.numCond) :
    (∃ charts, chartsOf L C times rows = .ok charts) ↔ L.numCond = L.numSpecies := by
  constructor
  · rintro ⟨charts, h⟩
    by_contra hne
    have hle : L.numCond ≤ L.numSpecies := by
      have := (List.subperm_of_subset hsorted.nodup fun i hi => List.mem_range.2 (hL.valid i hi)).length_le
      rwa [List.length_range, hL.len] at this
    rw [C80_excluded hwater (by omega)] at h
    cases h
  · intro hall
    have hincl := incl_range hL hsorted hall
    have hcond : 0 < L.numCond := by rw [← hL.len]; exact List.length_pos_of_mem hwater
    obtain ⟨charts, h, -⟩ := C80_charts (C := C) hcond hincl hrows (by rw [hall] at hlen ⊢; exact hlen)
    exact ⟨charts, h⟩

/-- C80: the title is the mass the partitioning routine computes for the state. -/
theorem C80_title (hall : L.numCond = L.numSpecies) (hna : 0 < C.na) (hmw : ∀ j < L.numCond, 0 ≤ C.mw j) {y : ℕ → ℝ}
    (hy : ∀ i, 0 ≤ y i) : ∑ b ∈ Finset.range L.numBins, ∑ j ∈ Finset.range (L.numCond - 1),
      max 0 (slotMass y L.numCond C.mw C.na b j) = totalSoaMass L (partArgs L C y) := by
  rw [soa_eq, Finset.mul_sum]
  refine Finset.sum_congr rfl fun b _ => ?_
  rw [Finset.mul_sum]
  refine Finset.sum_congr rfl fun j hj => ?_
  have hj' := Finset.mem_range.1 hj
  rw [conc_partArgs, slotMass,
    max_eq_right (mul_nonneg (mul_nonneg (div_nonneg (hy _) hna.le) (hmw j (by omega))) (by norm_num)), ← hall]
  show _ = 10 ^ 12 * (_ / C.na * C.mw (j + 1 - 1))
  rw [Nat.add_sub_cancel]
  ring

end

/-! ## The charts of a prepared simulation -/

section Yield

variable {O : Type} {s : YieldSettings} {toFloat : Str → Except PyErr ℚ} {read : Str → Except PyErr O}
  {props : O → PureProps} {lines : List Str} {r : Snapshot O} {P : Prepared}
  {M : ℝ → (ℕ → ℝ) → Machine P.layout} {n : ℕ} {F : ℝ → (Fin n → ℝ) → Fin n → ℝ} {d : Str}

theorem allPhases_everywhere {L : Aerosol.Layout} {y : ℕ → ℝ} (hincl : L.incl = List.range L.numCond) {i : ℕ}
    (hi : i < L.numCond) : allPhases L y i =
      y i + ∑ b ∈ Finset.range L.numBins, y (L.numSpecies + b * L.numCond + i) := by
  unfold allPhases
  congr 1
  rw [Finset.sum_eq_single i]
  · rw [if_pos (by rw [hincl, List.getElem?_range hi])]
  · intro j hj hne
    rw [hincl, List.getElem?_range (Finset.mem_range.1 hj), if_neg (by simpa using hne)]
  · exact fun hn => absurd (Finset.mem_range.2 hi) hn

theorem getD_ofFn {n : ℕ} (row : Fin n → ℝ) : (fun i => (List.ofFn row).getD i 0) = stateOf row := by
  funext i
  unfold stateOf
  rw [List.getD_eq_getElem?_getD]
  split
  · rename_i h
    rw [List.getElem?_eq_getElem (by simpa using h)]
    simp
  · rename_i h
    rw [List.getElem?_eq_none (by simpa using h)]
    rfl

/-- C80: what is drawn for a run the driver prepares. There is one chart per reported row, showing the masses in each
bin; if a species has a positive yield every bin is filled and the bars with a positive height are those of species with
a positive yield; the title is the organic mass the partitioning routine computes for the row, and not more than the
mass of all vapours at the start. -/
theorem C80_run (h : extractSpecies toFloat read lines = .ok r) (hg : GoodYield s) (hl : GoodLibrary props)
    (hyield : ∀ c ∈ r.conc, 0 ≤ c) (hmass : 0 < s.mass) (hrh : 0 < s.rh)
    (hP : prepareYield s toFloat read props lines = .ok (some P)) (hd : '\n' ∉ d)
    (hM : ∀ t y, (M t y).Orderly) (hF : YieldFileSystem
      (Ft.partText d P.layout (P.layout.numSpecies + P.layout.numBins * P.layout.numCond)) P.layout P.const M F)
    {solve : (Fin n → ℝ) → ℚ → Fin n → ℝ} {sim batch : ℚ} (hsim : 0 < sim) (hb : 0 < batch) {zero : Fin n → ℝ}
    {ts : List ℚ} {rows : List (Fin n → ℝ)}
    (hrun : runSimulation id solve zero (startVector P n) sim batch = .ok (ts, rows))
    (hex : ExactBatches F solve batch (startVector P n) rows.length) :
    ∃ charts, chartsOf P.layout P.const ts (rows.map List.ofFn) = .ok charts ∧ charts.length = rows.length ∧
      ∀ (k : ℕ) (c : Chart) (row : Fin n → ℝ), charts[k]? = some c → rows[k]? = some row →
        Shows c (slotMass (stateOf row) (r.next + 1) P.const.mw P.const.na) r.next s.numBins ∧
        c.title = totalSoaMass P.layout (partArgs P.layout P.const (stateOf row)) ∧
        c.title ≤ ∑ i ∈ Finset.range r.next, yieldOf s ((r.conc.getD i 0 : ℚ) : ℝ) / s.na * P.const.mw i * 10 ^ 12 ∧
        ((∃ v ∈ r.conc, 0 < v) → ∀ b < s.numBins, Stacked 0 (Chart.binBars c b) 1 ∧
          ∀ i < r.next, ∃ low height, Chart.bar c i b = some (some low, some height) ∧
            (0 < height ↔ 0 < r.conc.getD i 0)) := by
  have hr := yield_ready_of h hg hl hP
  have hlen := (C45_dense h).2.2.2.2.1
  have hcn : P.layout.numCond = r.next + 1 := by rw [hr.layout]
  have hsn : P.layout.numSpecies = r.next + 1 := by rw [hr.layout]
  have hbn : P.layout.numBins = s.numBins := by rw [hr.layout]
  have hna : P.const.na = s.na := hr.humid.2.2.2.2
  have hna' : 0 < P.const.na := hr.phys.na
  have hts : ts.length = rows.length := by
    obtain ⟨n, e1, e2, -⟩ := C32_output_times hsim hb hrun
    rw [e1, e2]
    simp
  obtain ⟨charts, h1, h2, h3⟩ := C80_charts (L := P.layout) (C := P.const) (by omega)
    (show P.layout.incl = List.range P.layout.numCond by rw [hr.layout]) (times := ts) (rows := rows.map List.ofFn)
    (by simpa using hts.le) (by
      intro y hy
      obtain ⟨row, -, rfl⟩ := List.mem_map.1 hy
      rw [List.length_ofFn, hF.1, hcn, hsn])
  refine ⟨charts, h1, h2.trans hts, fun k c row hc hrow => ?_⟩
  have hmem := List.mem_of_getElem? hrow
  have hshow := h3 k c (List.ofFn row) hc (by rw [List.getElem?_map, hrow]; rfl)
  rw [getD_ofFn, hcn, Nat.add_sub_cancel, hbn] at hshow
  obtain ⟨hnn, hshare, -, -⟩ := C77_run h hg hl hyield hP hd hM hF hsim hb hrun hex row hmem
  have hnn' := stateOf_nonneg hnn
  have hmw : ∀ j < P.layout.numCond, 0 < P.const.mw j := hr.phys.mw
  have hm0 : ∀ b, ∀ j < r.next, 0 ≤ slotMass (stateOf row) (r.next + 1) P.const.mw P.const.na b j := by
    intro b j hj
    have := (hmw j (by omega)).le
    have := hnn' (r.next + 1 + b * (r.next + 1) + j)
    unfold slotMass
    positivity
  have em : ∀ b, ∀ j < r.next, max 0 (slotMass (stateOf row) (r.next + 1) P.const.mw P.const.na b j) =
      slotMass (stateOf row) (r.next + 1) P.const.mw P.const.na b j := fun b j hj => max_eq_right (hm0 b j hj)
  have es : ∀ b, ∑ j ∈ Finset.range r.next, max 0 (slotMass (stateOf row) (r.next + 1) P.const.mw P.const.na b j) =
      ∑ j ∈ Finset.range r.next, slotMass (stateOf row) (r.next + 1) P.const.mw P.const.na b j := fun b =>
    Finset.sum_congr rfl fun j hj => em b j (Finset.mem_range.1 hj)
  have hS : Shows c (slotMass (stateOf row) (r.next + 1) P.const.mw P.const.na) r.next s.numBins := by
    refine ⟨?_, hshow.length, fun b hb h => hshow.stacked b hb (by rw [es]; exact h), fun b hb h j hj => ?_,
      fun b hb h => hshow.empty b hb (by rw [es]; exact h), hshow.nothing⟩
    · rw [hshow.title]
      exact Finset.sum_congr rfl fun b _ => es b
    · obtain ⟨low, hlow⟩ := hshow.share b hb (by rw [es]; exact h) j hj
      rw [es, em b j hj] at hlow
      exact ⟨low, hlow⟩
  refine ⟨hS, ?_, ?_, ?_⟩
  · have := C80_title (L := P.layout) (C := P.const) (hcn.trans hsn.symm) hna' (fun j hj => (hmw j hj).le) hnn'
    rw [hcn, Nat.add_sub_cancel, hbn] at this
    rw [hshow.title, this]
  · rw [hS.title, Finset.sum_comm]
    refine Finset.sum_le_sum fun i hi => ?_
    have hi' := Finset.mem_range.1 hi
    obtain ⟨name, hname⟩ := ((C45_dense h).2.2.1 i).2 hi'
    obtain ⟨k, v, c, o, f1, f2, -, f4, -⟩ := C45_first h hname
    have e := hshare k name v i c f1 hname f2
    rw [allPhases_everywhere (y := stateOf row) (show P.layout.incl = List.range P.layout.numCond by rw [hr.layout])
      (show i < P.layout.numCond by omega), hsn, hcn, hbn] at e
    rw [List.getD_eq_getElem?_getD, f4, Option.getD_some, ← e, hna]
    unfold slotMass
    rw [← Finset.sum_mul, ← Finset.sum_mul, ← Finset.sum_div]
    have h1 := hnn' i
    have h2 := (hmw i (by omega)).le
    have h3 := hg.na
    gcongr
    linarith
  · rintro ⟨v, hv, hv0⟩ b hb'
    obtain ⟨hpres, -, -⟩ := C79_yield_run h hg hl hyield hmass hrh hP hd hM hF hsim hb hrun hex row hmem
    have hpos : ∀ i < r.next, 0 < slotMass (stateOf row) (r.next + 1) P.const.mw P.const.na b i ↔
        0 < r.conc.getD i 0 := by
      intro i hi
      obtain ⟨name, hname⟩ := ((C45_dense h).2.2.1 i).2 hi
      obtain ⟨k, v, c, o, f1, f2, -, f4, -⟩ := C45_first h hname
      have e := (hpres k name v i c f1 hname f2).2 b hb'
      rw [List.getD_eq_getElem?_getD, f4, Option.getD_some, ← e]
      unfold slotMass
      rw [mul_pos_iff_of_pos_right (by norm_num), mul_pos_iff_of_pos_right (hmw i (by omega)), div_pos_iff_of_pos_right hna']
    have htot : 0 < ∑ j ∈ Finset.range r.next, slotMass (stateOf row) (r.next + 1) P.const.mw P.const.na b j := by
      obtain ⟨i, hi, rfl⟩ := List.mem_iff_getElem.1 hv
      have hi' : i < r.next := by omega
      refine Finset.sum_pos' (fun j hj => hm0 b j (Finset.mem_range.1 hj)) ⟨i, Finset.mem_range.2 hi', ?_⟩
      rw [hpos i hi', List.getD_eq_getElem?_getD, List.getElem?_eq_getElem hi, Option.getD_some]
      exact hv0
    refine ⟨hS.stacked b hb' htot, fun i hi => ?_⟩
    obtain ⟨low, hlow⟩ := hS.share b hb' htot i hi
    exact ⟨low, _, hlow, by rw [div_pos_iff_of_pos_right htot, hpos i hi]⟩

end Yield

/-! ## Cases the theorems apply to -/

/-- Two species besides water and two bins, one of them with equal masses and one with water only: the first is halved,
the second has no bars of any height. -/
example : ∃ c, drawChart [0, 0, 0, 3, 1, 5, 0, 0, 2] 3 2 [1, 3, 18] (10 ^ 12) = .ok c ∧ c.title = 6 ∧
    c.bars.length = 2 ∧ (∃ low, Chart.bar c 1 0 = some (some low, some (1 / 2))) ∧ Stacked 0 (Chart.binBars c 0) 1 ∧
    ∃ low, Chart.bar c 1 1 = some (low, none) := by
  obtain ⟨c, h, hs⟩ := drawChart_shows (y := [0, 0, 0, 3, 1, 5, 0, 0, 2]) (numBins := 2) (n := 3) (molw := [1, 3, 18])
    (by norm_num) rfl (10 ^ 12) (by simp)
  have e0 : ∑ j ∈ Finset.range (3 - 1), max 0 (slotMass (fun i => [0, 0, 0, 3, 1, 5, 0, 0, 2].getD i 0) 3
      (fun j => [1, 3, 18].getD j 0) (10 ^ 12) 0 j) = (6 : ℝ) := by norm_num [Finset.sum_range_succ, slotMass]
  have e1 : ∑ j ∈ Finset.range (3 - 1), max 0 (slotMass (fun i => [0, 0, 0, 3, 1, 5, 0, 0, 2].getD i 0) 3
      (fun j => [1, 3, 18].getD j 0) (10 ^ 12) 1 j) = (0 : ℝ) := by norm_num [Finset.sum_range_succ, slotMass]
  refine ⟨c, h, ?_, hs.length, ?_, hs.stacked 0 (by norm_num) (by rw [e0]; norm_num), hs.empty 1 (by norm_num) e1 1 (by norm_num)⟩
  · rw [hs.title, Finset.sum_range_succ, Finset.sum_range_one, e0, e1, add_zero]
  · obtain ⟨low, hlow⟩ := hs.share 0 (by norm_num) (by rw [e0]; norm_num) 1 (by norm_num)
    rw [e0] at hlow
    refine ⟨low, hlow.trans ?_⟩
    norm_num [slotMass]

/-- With the file and the settings of the driver, 36 charts are drawn, and in each all 16 bins are filled by bars of all
21 species. -/
example (props : Str → PureProps) (hl : GoodLibrary props) : ∃ P,
    prepareYield yieldSettings (fun v => Except.ok (pyFloat v)) (fun n => Except.ok n) props yieldLines = .ok (some P) ∧
    ∀ (M : ℝ → (ℕ → ℝ) → Machine P.layout) (_ : ∀ t y, (M t y).Orderly) (d : Str) (_ : '\n' ∉ d),
    ∃ (F : ℝ → (Fin P.y0.length → ℝ) → Fin P.y0.length → ℝ) (solve : (Fin P.y0.length → ℝ) → ℚ → Fin P.y0.length → ℝ)
      (ts : List ℚ) (rows : List (Fin P.y0.length → ℝ)) (charts : List Chart), YieldFileSystem
        (Ft.partText d P.layout (P.layout.numSpecies + P.layout.numBins * P.layout.numCond)) P.layout P.const M F ∧
      runSimulation id solve (fun _ => 0) (startVector P P.y0.length) 3600 100 = .ok (ts, rows) ∧
      ExactBatches F solve 100 (startVector P P.y0.length) rows.length ∧
      chartsOf P.layout P.const ts (rows.map List.ofFn) = .ok charts ∧ charts.length = 36 ∧
      ∀ c ∈ charts, ∀ b < 16, Stacked 0 (Chart.binBars c b) 1 ∧ ∀ i < 21, ∃ low height,
        Chart.bar c i b = some (some low, some height) ∧ 0 < height := by
  obtain ⟨r, h, hn, hc⟩ := yieldLines_positive
  have hc' : ∀ c ∈ r.conc, 0 ≤ c := fun c hc'' => (hc c hc'').le
  obtain ⟨P, hP, -⟩ := C77_prepared (props := props) h yieldSettings_good hl
  refine ⟨P, hP, fun M hM d hd => ?_⟩
  obtain ⟨⟨F, hF, solve, hsolve⟩, -⟩ := C77_determined (n := 0) h yieldSettings_good hl hc' hP hd hM (batch := 100)
    (by norm_num)
  have hrun := C32_C33_whole_batches (n := 36) (batch := 100) (by norm_num) (by norm_num)
    (exact_id 100 36) solve (fun _ => 0) (startVector P P.y0.length)
  rw [show ((36 : ℕ) : ℚ) * 100 = 3600 by norm_num] at hrun
  obtain ⟨charts, h1, h2, h3⟩ := C80_run h yieldSettings_good hl hc' (by norm_num [yieldSettings])
    (by norm_num [yieldSettings, driverSettings]) hP hd hM hF (by norm_num) (by norm_num) hrun (hsolve _)
  refine ⟨F, solve, _, _, charts, hF, hrun, hsolve _, h1, by rw [h2]; simp, fun c hmem b hb => ?_⟩
  obtain ⟨k, hk, rfl⟩ := List.mem_iff_getElem.1 hmem
  have hlen := (C45_dense h).2.2.2.2.1
  have hsome : ∀ i < 21, 0 < r.conc.getD i 0 := fun i hi => by
    rw [List.getD_eq_getElem?_getD, List.getElem?_eq_getElem (by omega), Option.getD_some]
    exact hc _ (List.getElem_mem _)
  obtain ⟨-, -, -, h4⟩ := h3 k _ _ (List.getElem?_eq_getElem hk) (List.getElem?_eq_getElem (by rw [← h2]; exact hk))
  obtain ⟨h5, h6⟩ := h4 ⟨r.conc[0], List.getElem_mem (by omega), hc _ (List.getElem_mem _)⟩ b hb
  refine ⟨h5, fun i hi => ?_⟩
  obtain ⟨low, height, h7, h8⟩ := h6 i (by omega)
  exact ⟨low, height, h7, h8.2 (hsome i hi)⟩

end PyBox
