import Verif.Sim.Presence
import Verif.Props.WellPosed

/-!
# C78: which species a gas simulation contains

With an exact solver, the species that are there in the results of a gas simulation are the species
that can be made from those there at the start, by the reactions that run.
-/

namespace PyBox

open Set Spec

namespace Spec

/-- Between the times `a` and `c` of a batch the rate coefficient of reaction `e` is positive. -/
def RunsAlone (rates : Rates) (start h2o temp a c : ℝ) (e : ℕ) : Prop :=
  ∀ t ∈ Ioo a c, ∀ ro2, 0 ≤ ro2 → 0 < rates (start + t) ro2 h2o temp e

/-- Between the times `a` and `c` of a batch the rate coefficient of reaction `e` is positive if there are
peroxy radicals. -/
def RunsWithRadicals (rates : Rates) (start h2o temp a c : ℝ) (e : ℕ) : Prop :=
  ∀ t ∈ Ioo a c, ∀ ro2, 0 < ro2 → 0 < rates (start + t) ro2 h2o temp e

/-- The reactions during a batch: there is a time, from `a` to `c`, when all those run that run at all.
Some run only with peroxy radicals. -/
def RunTogether (n : ℕ) (rates : Rates) (start h2o temp batch a c : ℝ) : Prop :=
  ∀ e < n, RunsAlone rates start h2o temp a c e ∨
    (RunsWithRadicals rates start h2o temp a c e ∧
      ∀ t ∈ Ico 0 batch, rates (start + t) 0 h2o temp e = 0) ∨
    ∀ t ∈ Ico 0 batch, ∀ ro2, 0 ≤ ro2 → rates (start + t) ro2 h2o temp e = 0

/-- The species that can be made from those `present` by reactions that run: `alone`, or `helped` by peroxy
radicals that can be made too. Reactions without reactants have no effect, and species held constant
are not made. -/
inductive Appears (qs : List RawEqn) (alone helped : ℕ → Prop) (present : Str → Prop) : Str → Prop
  | start {s : Str} (h : present s) : Appears qs alone helped present s
  | made {s : Str} {e : ℕ} {q : RawEqn} (hq : qs[e]? = some q) (hne : chemReactants q ≠ [])
      (hrun : alone e) (hr : ∀ r ∈ names (chemReactants q), Appears qs alone helped present r)
      (hp : s ∈ names (chemProducts q)) (hc : s ∉ heldConstant) : Appears qs alone helped present s
  | madeHelped {s x : Str} {e : ℕ} {q : RawEqn} (hq : qs[e]? = some q) (hne : chemReactants q ≠ [])
      (hrun : helped e) (hx : x ∈ ro2Names) (hx' : Appears qs alone helped present x)
      (hr : ∀ r ∈ names (chemReactants q), Appears qs alone helped present r)
      (hp : s ∈ names (chemProducts q)) (hc : s ∉ heldConstant) : Appears qs alone helped present s

/-- No product gets lost when the reaction is read: after the first product that repeats the last
reactant comes nothing new. -/
def ProductsKept (q : RawEqn) : Prop :=
  ∀ p ∈ (upTo (lastName q) (chemProducts q)).2, p.2 ∈ names (upTo (lastName q) (chemProducts q)).1

/-- The species there are at the start. -/
def PresentIn (m : Mechanism) (y : ℕ → ℝ) (s : Str) : Prop :=
  ∃ i, m.tables.index.get? s = some i ∧ 0 < y i

end Spec

theorem Spec.GainGood.kept {q : RawEqn} (h : GainGood q) : ProductsKept q := h.2

/-! ## What a reaction changes -/

/-- A reaction adds a positive amount to its products that are not reactants, and nothing to species
that do not take part. -/
def GainsProducts (qs : List RawEqn) (A : Str → ℕ → ℝ) : Prop :=
  ∀ s e q, qs[e]? = some q → s ∉ names (chemReactants q) →
    (s ∈ names (chemProducts q) → 0 < A s e) ∧ (s ∉ names (chemProducts q) → A s e = 0)

theorem lastCoef_pos {l : List (ℚ × Str)} (hpos : ∀ p ∈ l, 0 < p.1) {s : Str} (hs : s ∈ names l) :
    0 < lastCoef l s := by
  unfold lastCoef
  cases hl : (l.filter (fun p => p.2 = s)).getLast? with
  | none =>
    rw [List.getLast?_eq_none_iff, List.filter_eq_nil_iff] at hl
    obtain ⟨p, hp, hps⟩ := List.mem_map.1 hs
    exact absurd (by simpa using hps) (hl p hp)
  | some p => exact hpos p (List.mem_filter.1 (List.mem_of_getLast? hl)).1

theorem gainEntry_product {q : RawEqn} (hpos : ∀ p ∈ chemProducts q, 0 < p.1) (hk : ProductsKept q)
    (s : Str) : (s ∈ names (chemProducts q) → ∃ c, 0 < c ∧ gainEntry q s = some c) ∧
      (s ∉ names (chemProducts q) → gainEntry q s = none) := by
  have happ := upTo_append (lastName q) (chemProducts q)
  have hn : names (chemProducts q) = names (upTo (lastName q) (chemProducts q)).1 ++
      names (upTo (lastName q) (chemProducts q)).2 := by
    conv_lhs => rw [← happ]
    simp [names]
  have h1 : ∀ p ∈ (upTo (lastName q) (chemProducts q)).1, 0 < p.1 := fun p hp =>
    hpos p (by rw [← happ]; exact List.mem_append_left _ hp)
  have h2 : ∀ p ∈ (upTo (lastName q) (chemProducts q)).2, 0 < p.1 := fun p hp =>
    hpos p (by rw [← happ]; exact List.mem_append_right _ hp)
  rw [gainEntry_eq]
  constructor
  · intro hs
    have hs' : s ∈ names (upTo (lastName q) (chemProducts q)).1 := by
      rw [hn, List.mem_append] at hs
      rcases hs with hs | hs
      · exact hs
      · obtain ⟨p, hp, rfl⟩ := List.mem_map.1 hs
        exact hk p hp
    exact ⟨_, add_pos_of_pos_of_nonneg (lastCoef_pos h1 hs') (coef_nonneg h2 s), if_pos hs'⟩
  · intro hs
    rw [if_neg]
    intro hs'
    exact hs (by rw [hn]; exact List.mem_append_left _ hs')

theorem recorded_gains {text : Str} {m : Mechanism} (h : extractMechanism text = .ok m)
    {qs : List RawEqn} (hq : Reads text m.equations.toNat qs)
    (hpos : ∀ q ∈ qs, ∀ p ∈ chemReactants q ++ chemProducts q, 0 < p.1) (hk : ∀ q ∈ qs, ProductsKept q) :
    GainsProducts qs (netRecorded m.tables) ∧ GainsProducts qs (netFortran m.tables) := by
  have key : ∀ s e q, qs[e]? = some q → s ∉ names (chemReactants q) → cell m.tables.loss s e = none ∧
      (s ∈ names (chemProducts q) → ∃ c, 0 < c ∧ cell m.tables.gain s e = some c) ∧
      (s ∉ names (chemProducts q) → cell m.tables.gain s e = none) := by
    intro s e q he hs
    rw [C05_loss_coefficients h hq, cell_gain h hq, he]
    refine ⟨by rw [Option.bind_some, if_neg hs], ?_⟩
    exact gainEntry_product (fun p hp => hpos q (List.mem_of_getElem? he) p (List.mem_append_right _ hp))
      (hk q (List.mem_of_getElem? he)) s
  constructor
  · intro s e q he hs
    obtain ⟨k1, k2, k3⟩ := key s e q he hs
    unfold netRecorded recorded
    rw [k1]
    constructor
    · intro hp
      obtain ⟨c, hc, hce⟩ := k2 hp
      rw [hce]
      have : (0 : ℝ) < (c : ℝ) := by exact_mod_cast hc
      simpa using this
    · intro hp
      rw [k3 hp]
      simp
  · intro s e q he hs
    obtain ⟨k1, k2, k3⟩ := key s e q he hs
    unfold netFortran
    rw [k1]
    constructor
    · intro hp
      obtain ⟨c, hc, hce⟩ := k2 hp
      rw [hce]
      have h1 : 0 < offByOne (some c) := by
        unfold offByOne
        dsimp only
        split
        · norm_num
        · linarith
      have : (0 : ℝ) < (offByOne (some c) : ℚ) := by exact_mod_cast h1
      simpa [offByOne] using this
    · intro hp
      rw [k3 hp]
      simp

/-! ## Tendencies -/

section Kinetic

variable {text : Str} {m : Mechanism} {qs : List RawEqn} {A : Str → ℕ → ℝ} {rates : Rates}
  {start h2o temp : ℝ}

theorem reactionProduct_pos {qs : List RawEqn} (tb : Tables) {y : ℕ → ℝ} {e : ℕ} {q : RawEqn}
    (hqe : qs[e]? = some q) (hne : chemReactants q ≠ [])
    (h : ∀ r ∈ names (chemReactants q), 0 < concOf tb y r) : 0 < reactionProduct qs tb y e := by
  unfold reactionProduct
  rw [hqe]
  dsimp only
  unfold codeProduct
  rw [if_neg hne]
  refine List.prod_pos fun x hx => ?_
  obtain ⟨r, hr, rfl⟩ := List.mem_map.1 hx
  exact Real.rpow_pos_of_pos (h r hr) _

/-- A species that is not there is made by a reaction that runs. -/
theorem kineticValue_pos (hA : LossOnly qs A) (hgain : GainsProducts qs A)
    (hpos : ∀ q ∈ qs, ∀ p ∈ chemReactants q, 0 < p.1)
    (hr : ∀ e time ro2, 0 ≤ ro2 → 0 ≤ rates (start + time) ro2 h2o temp e) {s : Str} {t : ℝ} {y : ℕ → ℝ}
    (hy : ∀ i, 0 ≤ y i) (h0 : concOf m.tables y s = 0) (hc : s ∉ heldConstant) {e : ℕ} {q : RawEqn}
    (hqe : qs[e]? = some q) (hne : chemReactants q ≠ []) (hp : s ∈ names (chemProducts q))
    (hthere : ∀ r ∈ names (chemReactants q), 0 < concOf m.tables y r)
    (hrate : 0 < rates (start + t) ((ro2Indices m.tables.index).map y).sum h2o temp e) :
    0 < kineticValue m qs A rates start h2o temp s t y := by
  have hro2 : 0 ≤ ((ro2Indices m.tables.index).map y).sum := List.sum_nonneg fun x hx => by
    obtain ⟨i, -, rfl⟩ := List.mem_map.1 hx
    exact hy i
  unfold kineticValue
  rw [if_neg hc]
  have hlt : e < qs.length := (List.getElem?_eq_some_iff.1 hqe).1
  refine Finset.sum_pos' (fun e he => ?_) ⟨e, Finset.mem_range.2 hlt, ?_⟩
  · have hlt := Finset.mem_range.1 he
    have hqe : qs[e]? = some qs[e] := List.getElem?_eq_getElem hlt
    by_cases hs : s ∈ names (chemReactants qs[e])
    · rw [reactionProduct_zero m.tables hqe (hpos _ (List.getElem_mem hlt)) hs h0]
      simp
    · exact mul_nonneg (hA s e _ hqe hs) (mul_nonneg (reactionProduct_nonneg _ _ hy e) (hr _ _ _ hro2))
  · have hs : s ∉ names (chemReactants q) := fun hs => by
      have := hthere s hs
      rw [h0] at this
      exact lt_irrefl _ this
    exact mul_pos ((hgain s e q hqe hs).1 hp) (mul_pos (reactionProduct_pos m.tables hqe hne hthere) hrate)

/-- A species that no reaction between the species there makes has no tendency. -/
theorem kineticValue_zero (hgain : GainsProducts qs A)
    (hpos : ∀ q ∈ qs, ∀ p ∈ chemReactants q, 0 < p.1) {s : Str} {t : ℝ} {y : ℕ → ℝ}
    (h0 : concOf m.tables y s = 0)
    (hno : ∀ e q, qs[e]? = some q → chemReactants q ≠ [] → s ∈ names (chemProducts q) → s ∉ heldConstant →
      (∀ r ∈ names (chemReactants q), concOf m.tables y r ≠ 0) →
      rates (start + t) ((ro2Indices m.tables.index).map y).sum h2o temp e = 0) :
    kineticValue m qs A rates start h2o temp s t y = 0 := by
  unfold kineticValue
  split
  · rfl
  rename_i hc
  refine Finset.sum_eq_zero fun e he => ?_
  have hlt := Finset.mem_range.1 he
  have hqe : qs[e]? = some qs[e] := List.getElem?_eq_getElem hlt
  by_cases hall : ∀ r ∈ names (chemReactants qs[e]), concOf m.tables y r ≠ 0
  · have hs : s ∉ names (chemReactants qs[e]) := fun hs => hall s hs h0
    by_cases hp : s ∈ names (chemProducts qs[e])
    · by_cases hne : chemReactants qs[e] = []
      · have : reactionProduct qs m.tables y e = 0 := by
          unfold reactionProduct
          rw [hqe]
          dsimp only
          unfold codeProduct
          rw [if_pos hne]
        rw [this]
        simp
      · rw [hno e _ hqe hne hp hc hall]
        simp
    · rw [(hgain s e _ hqe hs).2 hp]
      simp
  · push Not at hall
    obtain ⟨r, hr, hr0⟩ := hall
    rw [reactionProduct_zero m.tables hqe (hpos _ (List.getElem_mem hlt)) hr hr0]
    simp

theorem occurs_right {q : RawEqn} {s : Str} (hs : s ∈ names (chemProducts q)) : s ∈ occurrences q := by
  obtain ⟨p, hp, rfl⟩ := List.mem_map.1 hs
  obtain ⟨h1, h2⟩ := List.mem_filter.1 hp
  exact List.mem_filter.2 ⟨List.mem_append_right _ (List.mem_map.2 ⟨p, h1, rfl⟩), h2⟩

theorem occurs_left {q : RawEqn} {s : Str} (hs : s ∈ names (chemReactants q)) : s ∈ occurrences q := by
  obtain ⟨p, hp, rfl⟩ := List.mem_map.1 hs
  obtain ⟨h1, h2⟩ := List.mem_filter.1 hp
  exact List.mem_filter.2 ⟨List.mem_append_left _ (List.mem_map.2 ⟨p, h1, rfl⟩), h2⟩

theorem appears_registered (h : extractMechanism text = .ok m) (hq : Reads text m.equations.toNat qs)
    {alone helped : ℕ → Prop} {present : Str → Prop}
    (hpres : ∀ s, present s → ∃ i, m.tables.index.get? s = some i) {s : Str}
    (hs : Appears qs alone helped present s) : ∃ i, m.tables.index.get? s = some i := by
  obtain ⟨h2, -⟩ := extract_tables h hq
  have hprod : ∀ {e : ℕ} {q : RawEqn} {s : Str}, qs[e]? = some q → s ∈ names (chemProducts q) →
      ∃ i, m.tables.index.get? s = some i := by
    intro e q s hqe hp
    rw [h2, indexed_iff]
    exact ⟨q, List.mem_of_getElem? hqe, occurs_right hp⟩
  cases hs with
  | start hp => exact hpres _ hp
  | made hqe _ _ _ hp _ => exact hprod hqe hp
  | madeHelped hqe _ _ _ _ _ hp _ => exact hprod hqe hp

/-- The total of the peroxy radicals is positive if one of them is there. -/
theorem radicals_pos {y : ℕ → ℝ} (hy : ∀ i, 0 ≤ y i) {x : Str} (hx : x ∈ ro2Names) {i : ℕ}
    (hi : m.tables.index.get? x = some i) (h0 : 0 < y i) : 0 < ((ro2Indices m.tables.index).map y).sum := by
  have hmem : i ∈ ro2Indices m.tables.index := by
    rw [ro2Indices_eq, List.mem_filterMap]
    exact ⟨x, hx, hi⟩
  refine lt_of_lt_of_le h0 (List.single_le_sum (fun z hz => ?_) _ (List.mem_map.2 ⟨i, hmem, rfl⟩))
  obtain ⟨j, -, rfl⟩ := List.mem_map.1 hz
  exact hy j

theorem radicals_zero {y : ℕ → ℝ} (h : ∀ x ∈ ro2Names, ∀ i, m.tables.index.get? x = some i → y i = 0) :
    ((ro2Indices m.tables.index).map y).sum = 0 := by
  refine List.sum_eq_zero fun z hz => ?_
  obtain ⟨j, hj, rfl⟩ := List.mem_map.1 hz
  rw [ro2Indices_eq, List.mem_filterMap] at hj
  obtain ⟨x, hx, hxj⟩ := hj
  exact h x hx j hxj

/-- What holds for the species there at the start, and for every species that is made whenever the
species it holds for are there, holds for all species that can be made. -/
theorem appears_induct (h : extractMechanism text = .ok m) (hq : Reads text m.equations.toNat qs)
    (hA : LossOnly qs A) (hgain : GainsProducts qs A) (hpos : ∀ q ∈ qs, ∀ p ∈ chemReactants q, 0 < p.1)
    (hr : ∀ e time ro2, 0 ≤ ro2 → 0 ≤ rates (start + time) ro2 h2o temp e) {a c : ℝ}
    {present Q : Str → Prop} (hpres : ∀ s, present s → ∃ i, m.tables.index.get? s = some i)
    (hstart : ∀ s, present s → Q s)
    (hstep : ∀ s i, m.tables.index.get? s = some i → s ∉ heldConstant → (∀ t ∈ Ioo a c, ∀ y : ℕ → ℝ,
      (∀ j, 0 ≤ y j) → (∀ r j, m.tables.index.get? r = some j → Q r → 0 < y j) → y i = 0 →
      0 < kineticValue m qs A rates start h2o temp s t y) → Q s) {s : Str}
    (hs : Appears qs (RunsAlone rates start h2o temp a c) (RunsWithRadicals rates start h2o temp a c)
      present s) : Q s := by
  obtain ⟨h2, -⟩ := extract_tables h hq
  have hocc : ∀ {e : ℕ} {q : RawEqn} {s : Str}, qs[e]? = some q → s ∈ occurrences q →
      ∃ i, m.tables.index.get? s = some i := by
    intro e q s hqe hp
    rw [h2, indexed_iff]
    exact ⟨q, List.mem_of_getElem? hqe, hp⟩
  induction hs with
  | start hp => exact hstart _ hp
  | @made s e q hqe hne hrun _ hp hc ih =>
    obtain ⟨i, hi⟩ := hocc hqe (occurs_right hp)
    refine hstep s i hi hc fun t ht y hy hQ h0 => ?_
    refine kineticValue_pos hA hgain hpos hr hy (by rw [← concOf_holds _ _ _ _ hi, h0]) hc hqe hne hp
      (fun r hr' => ?_) (hrun t ht _ ?_)
    · obtain ⟨j, hj⟩ := hocc hqe (occurs_left hr')
      rw [← concOf_holds _ _ _ _ hj]
      exact hQ r j hj (ih r hr')
    · exact List.sum_nonneg fun x hx => by
        obtain ⟨i, -, rfl⟩ := List.mem_map.1 hx
        exact hy i
  | @madeHelped s x e q hqe hne hrun hx hx' _ hp hc ihx ih =>
    obtain ⟨i, hi⟩ := hocc hqe (occurs_right hp)
    obtain ⟨k, hk⟩ := appears_registered h hq hpres hx'
    refine hstep s i hi hc fun t ht y hy hQ h0 => ?_
    refine kineticValue_pos hA hgain hpos hr hy (by rw [← concOf_holds _ _ _ _ hi, h0]) hc hqe hne hp
      (fun r hr' => ?_) (hrun t ht _ (radicals_pos hy hx hk (hQ x k hk ihx)))
    obtain ⟨j, hj⟩ := hocc hqe (occurs_left hr')
    rw [← concOf_holds _ _ _ _ hj]
    exact hQ r j hj (ih r hr')

/-- Species that cannot be made have no tendency in states without such species. -/
theorem appears_closed (h : extractMechanism text = .ok m) (hq : Reads text m.equations.toNat qs)
    (hgain : GainsProducts qs A) (hpos : ∀ q ∈ qs, ∀ p ∈ chemReactants q, 0 < p.1) {batch a c : ℝ}
    (htog : RunTogether qs.length rates start h2o temp batch a c) {present : Str → Prop} {t : ℝ}
    (ht : t ∈ Ico 0 batch) {y : ℕ → ℝ} (hy : ∀ i, 0 ≤ y i)
    (hz : ∀ s i, m.tables.index.get? s = some i → ¬ Appears qs (RunsAlone rates start h2o temp a c)
      (RunsWithRadicals rates start h2o temp a c) present s → y i = 0) {s : Str} {i : ℕ}
    (hs : m.tables.index.get? s = some i) (hn : ¬ Appears qs (RunsAlone rates start h2o temp a c)
      (RunsWithRadicals rates start h2o temp a c) present s) :
    kineticValue m qs A rates start h2o temp s t y = 0 := by
  obtain ⟨h2, -⟩ := extract_tables h hq
  refine kineticValue_zero hgain hpos (by rw [← concOf_holds _ _ _ _ hs, hz s i hs hn]) ?_
  intro e q hqe hne hp hc hall
  have happ : ∀ r ∈ names (chemReactants q), Appears qs (RunsAlone rates start h2o temp a c)
      (RunsWithRadicals rates start h2o temp a c) present r := by
    intro r hr
    by_contra hn
    obtain ⟨j, hj⟩ : ∃ j, m.tables.index.get? r = some j := by
      rw [h2, indexed_iff]
      exact ⟨q, List.mem_of_getElem? hqe, occurs_left hr⟩
    exact hall r hr (by rw [← concOf_holds _ _ _ _ hj, hz r j hj hn])
  have hlt : e < qs.length := (List.getElem?_eq_some_iff.1 hqe).1
  rcases htog e hlt with hk | ⟨hk, h0⟩ | hk
  · exact absurd (Appears.made hqe hne hk happ hp hc) hn
  · rw [radicals_zero, h0 t ht]
    intro x hx j hj
    refine hz x j hj fun hx' => hn (Appears.madeHelped hqe hne hk hx hx' happ hp hc)
  · exact hk t ht _ (List.sum_nonneg fun x hx => by
      obtain ⟨i, -, rfl⟩ := List.mem_map.1 hx
      exact hy i)

theorem KineticSystem.present {n : ℕ} {F : ℝ → (Fin n → ℝ) → Fin n → ℝ}
    (hF : KineticSystem m qs A rates start h2o temp F)
    (h : extractMechanism text = .ok m) (hq : Reads text m.equations.toNat qs) (hA : LossOnly qs A)
    (hgain : GainsProducts qs A) (hpos : ∀ q ∈ qs, ∀ p ∈ chemReactants q, 0 < p.1)
    (hone : WholeReactants qs) (hr : PiecewiseRates rates start h2o temp)
    {solve : (Fin n → ℝ) → ℚ → Fin n → ℝ} {sim batch : ℚ} (hs : 0 < sim) (hb : 0 < batch)
    {a c : ℝ} (ha : 0 ≤ a) (hac : a < c) (hcb : c ≤ batch)
    (htog : RunTogether qs.length rates start h2o temp batch a c)
    {zero y0 : Fin n → ℝ} (hy0 : ∀ i, 0 ≤ y0 i) {times : List ℚ} {rows : List (Fin n → ℝ)}
    (hrun : runSimulation id solve zero y0 sim batch = .ok (times, rows))
    (hex : ExactBatches F solve batch y0 rows.length) {row : Fin n → ℝ} (hrow : row ∈ rows) {s : Str}
    {i : Fin n} (hi : m.tables.index.get? s = some (i : ℕ)) :
    0 < row i ↔ Appears qs (RunsAlone rates start h2o temp a c) (RunsWithRadicals rates start h2o temp a c)
      (PresentIn m (stateOf y0)) s := by
  obtain ⟨sp, hsp, -⟩ := index_sum h hq hF.size
  have hfin : ∀ {s : Str} {j : ℕ}, m.tables.index.get? s = some j → ∃ i : Fin n, (i : ℕ) = j := by
    intro s j hj
    have : j < n := lt_of_lt_of_eq ((C01_indices h j).1 ⟨s, hj⟩) hF.size.symm
    exact ⟨⟨j, this⟩, rfl⟩
  have hpres : ∀ s, PresentIn m (stateOf y0) s → ∃ i, m.tables.index.get? s = some i :=
    fun s ⟨i, hi, _⟩ => ⟨i, hi⟩
  have hrn := hr.regular.nonneg
  have key := (hF.tame h hA hpos hone hr.regular).rows_present (hF.boxPieces h hone hr) hs hb hy0 hrun hex
    (P := fun i => Appears qs (RunsAlone rates start h2o temp a c)
      (RunsWithRadicals rates start h2o temp a c) (PresentIn m (stateOf y0)) (sp i)) (fun i hi => ?_)
    ha hac hcb (fun Q hQ hstep i hi => ?_) (fun t ht y hy hz i hi => ?_) row hrow i
  · rw [key, ← (hsp i s).1 hi]
  · exact Appears.start ⟨i, (hsp i _).2 rfl, by rw [stateOf_fin]; exact hi⟩
  · refine appears_induct h hq hA hgain hpos hrn (Q := fun s => ∀ i, sp i = s → Q i) hpres ?_ ?_ hi i rfl
    · rintro s ⟨j, hj, hj0⟩ i rfl
      refine hQ i ?_
      have : (i : ℕ) = j := Option.some.inj (((hsp i _).2 rfl).symm.trans hj)
      rwa [← this, stateOf_fin] at hj0
    · rintro s j hj hc hmade i rfl
      have hij : (i : ℕ) = j := Option.some.inj (((hsp i _).2 rfl).symm.trans hj)
      refine hstep i fun t ht y hy hQy h0 => ?_
      rw [hF.value (sp i) i ((hsp i _).2 rfl)]
      refine hmade t ht _ (stateOf_nonneg hy) (fun r k hk hr' => ?_) (by rw [← hij, stateOf_fin, h0])
      obtain ⟨k', rfl⟩ := hfin hk
      rw [stateOf_fin]
      exact hQy k' (hr' k' ((hsp k' r).1 hk).symm)
  · rw [hF.value (sp i) i ((hsp i _).2 rfl)]
    refine (appears_closed h hq hgain hpos htog ht (stateOf_nonneg hy) (fun r k hk hr' => ?_)
      ((hsp i _).2 rfl) hi).le
    obtain ⟨k', rfl⟩ := hfin hk
    rw [stateOf_fin]
    exact hz k' (by rwa [← (hsp k' r).1 hk])

end Kinetic

/-- C78: with an exact solver, the species there in every reported row of a gas simulation are exactly those that can
be made, by reactions that run, from the species there at the start. For mechanisms
whose coefficients are positive, whose reactants have total coefficients of at least 1, and whose products
are not lost when they are read. -/
theorem C78_present {text : Str} {m : Mechanism} (h : extractMechanism text = .ok m)
    {qs : List RawEqn} (hq : Reads text m.equations.toNat qs) (hk : ∀ q ∈ qs, ProductsKept q)
    (hpos : ∀ q ∈ qs, ∀ p ∈ chemReactants q ++ chemProducts q, 0 < p.1) (hone : WholeReactants qs)
    {rates : Rates} {start h2o temp : ℝ} (hr : PiecewiseRates rates start h2o temp) {n : ℕ}
    {F : ℝ → (Fin n → ℝ) → Fin n → ℝ} (hF : GasSystem m rates start h2o temp F)
    {solve : (Fin n → ℝ) → ℚ → Fin n → ℝ} {sim batch : ℚ} (hs : 0 < sim) (hb : 0 < batch)
    {a c : ℝ} (ha : 0 ≤ a) (hac : a < c) (hcb : c ≤ batch)
    (htog : RunTogether qs.length rates start h2o temp batch a c)
    {zero y0 : Fin n → ℝ} (hy0 : ∀ i, 0 ≤ y0 i) {times : List ℚ} {rows : List (Fin n → ℝ)}
    (hrun : runSimulation id solve zero y0 sim batch = .ok (times, rows))
    (hex : ExactBatches F solve batch y0 rows.length) {row : Fin n → ℝ} (hrow : row ∈ rows) {s : Str}
    {i : Fin n} (hi : m.tables.index.get? s = some (i : ℕ)) :
    0 < row i ↔ Appears qs (RunsAlone rates start h2o temp a c) (RunsWithRadicals rates start h2o temp a c)
      (PresentIn m (stateOf y0)) s :=
  (hF.kinetic h hq).present h hq (recorded_loss_only h hq hpos).1 (recorded_gains h hq hpos hk).1
    (left_pos hpos) hone hr hs hb ha hac hcb htog hy0 hrun hex hrow hi

/-- C78, Fortran version: with an exact solver, the species there in every reported row of a gas simulation are exactly
those that can be made, by reactions that run, from the species there at the start. Unlike in `C59` the
coefficients of the two versions need not agree. -/
theorem C78_present_fortran {text : Str} {m : Mechanism} (h : extractMechanism text = .ok m)
    {qs : List RawEqn} (hq : Reads text m.equations.toNat qs) (hk : ∀ q ∈ qs, ProductsKept q)
    (hpos : ∀ q ∈ qs, ∀ p ∈ chemReactants q ++ chemProducts q, 0 < p.1) (hone : WholeReactants qs)
    {cores : Option ℕ} {rates : Rates} {start h2o temp : ℝ} (hr : PiecewiseRates rates start h2o temp)
    {n : ℕ} {F : ℝ → (Fin n → ℝ) → Fin n → ℝ} (hF : GasSystemF m cores rates start h2o temp F)
    {solve : (Fin n → ℝ) → ℚ → Fin n → ℝ} {sim batch : ℚ} (hs : 0 < sim) (hb : 0 < batch)
    {a c : ℝ} (ha : 0 ≤ a) (hac : a < c) (hcb : c ≤ batch)
    (htog : RunTogether qs.length rates start h2o temp batch a c)
    {zero y0 : Fin n → ℝ} (hy0 : ∀ i, 0 ≤ y0 i) {times : List ℚ} {rows : List (Fin n → ℝ)}
    (hrun : runSimulation id solve zero y0 sim batch = .ok (times, rows))
    (hex : ExactBatches F solve batch y0 rows.length) {row : Fin n → ℝ} (hrow : row ∈ rows) {s : Str}
    {i : Fin n} (hi : m.tables.index.get? s = some (i : ℕ)) :
    0 < row i ↔ Appears qs (RunsAlone rates start h2o temp a c) (RunsWithRadicals rates start h2o temp a c)
      (PresentIn m (stateOf y0)) s :=
  (hF.kinetic h hq).present h hq (recorded_loss_only h hq hpos).2 (recorded_gains h hq hpos hk).2
    (left_pos hpos) hone hr hs hb ha hac hcb htog hy0 hrun hex hrow hi

/-! ## Cases the theorem applies to -/

/-- The rate coefficients `wavyRates` are positive at all times. -/
theorem wavyRates_together (n : ℕ) (start h2o temp batch : ℝ) :
    RunTogether n wavyRates start h2o temp batch 0 batch := by
  intro e _
  refine Or.inl fun t _ ro2 _ => ?_
  have h1 := Real.neg_one_le_sin (start + t)
  have h2 := abs_nonneg ro2
  unfold wavyRates
  linarith

/-- From methyl peroxy and nitrogen monoxide alone both reactions of `radicalText` run, and in the results
all five species are there; from methyl peroxy alone nothing is made. -/
theorem radical_present : ∃ (F : ℝ → (Fin 5 → ℝ) → Fin 5 → ℝ) (solve : (Fin 5 → ℝ) → ℚ → Fin 5 → ℝ),
    GasSystem ⟨build radicalReactions, 2⟩ wavyRates 0 0 0 F ∧
    (∃ rows, runSimulation id solve (fun _ => 0) ![1, 1, 0, 0, 0] (((2 : ℕ) : ℚ) * 60) 60
        = .ok ([60, 120], rows) ∧ rows.length = 2 ∧ ∀ row ∈ rows, ∀ i, 0 < row i) ∧
    ∃ rows, runSimulation id solve (fun _ => 0) ![1, 0, 0, 0, 0] (((2 : ℕ) : ℚ) * 60) 60
        = .ok ([60, 120], rows) ∧ rows.length = 2 ∧ ∀ row ∈ rows, ∀ i, 0 < row i ↔ i = 0 := by
  obtain ⟨F, hF⟩ := radical_system wavyRates 0 0 0
  have hg : ∀ q ∈ radicalReactions, GainGood q := fun q hq => (radical_regular q hq).gain
  obtain ⟨solve, hsolve⟩ := C61_exists radical_parses radical_reads radical_positive.1
    radical_positive.2 radical_weights (wavyRates_smooth 0 0 0).piecewise hF (batch := 60) (by norm_num)
  have hidx : ∀ i : Fin 5, (build radicalReactions).index.get?
      (["CH3O2".toList, "NO".toList, "HCHO".toList, "NO2".toList, "O".toList].getD i []) = some (i : ℕ) := by
    decide +kernel
  have hinv : ∀ (i : Fin 5) s, (build radicalReactions).index.get? s = some (i : ℕ) →
      s = ["CH3O2".toList, "NO".toList, "HCHO".toList, "NO2".toList, "O".toList].getD i [] := fun i s hs =>
    index_inj' radicalReactions hs (hidx i)
  have htog := wavyRates_together radicalReactions.length 0 0 0 ((60 : ℚ) : ℝ)
  have hrun : ∀ e, RunsAlone wavyRates 0 0 0 0 ((60 : ℚ) : ℝ) e := by
    intro e t ht ro2 h
    have h1 := Real.neg_one_le_sin (0 + t)
    have h2 := abs_nonneg ro2
    unfold wavyRates
    linarith
  have h60 : (0 : ℝ) < ((60 : ℚ) : ℝ) := by norm_num
  have hall := fun (y0 : Fin 5 → ℝ) (hy0 : ∀ i, 0 ≤ y0 i) (rows : List (Fin 5 → ℝ)) (hr) (row) (hrow)
      (i : Fin 5) => C78_present radical_parses radical_reads (fun q hq => (hg q hq).kept)
    radical_positive.1 radical_positive.2 (wavyRates_smooth 0 0 0).piecewise hF (batch := 60)
    (sim := (((2 : ℕ) : ℚ) * 60)) (zero := fun _ => 0) (solve := solve) (by norm_num) (by norm_num) le_rfl
    h60 le_rfl htog hy0 (times := [60, 120]) (rows := rows) hr (hsolve y0 hy0 _) (row := row) hrow (hidx i)
  refine ⟨F, solve, hF, ?_, ?_⟩
  · obtain ⟨rows, hr, hlen⟩ := radical_batches solve ![1, 1, 0, 0, 0]
    have hy0 : ∀ i : Fin 5, (0 : ℝ) ≤ ![1, 1, 0, 0, 0] i := by
      intro i; fin_cases i <;> simp
    refine ⟨rows, hr, hlen, fun row hrow i => (hall _ hy0 rows hr row hrow i).2 ?_⟩
    have a0 : Appears radicalReactions (RunsAlone wavyRates 0 0 0 0 ((60 : ℚ) : ℝ))
        (RunsWithRadicals wavyRates 0 0 0 0 ((60 : ℚ) : ℝ))
        (PresentIn ⟨build radicalReactions, 2⟩ (stateOf ![1, 1, 0, 0, 0])) "CH3O2".toList :=
      .start ⟨0, hidx 0, by simp [stateOf]⟩
    have a1 : Appears radicalReactions (RunsAlone wavyRates 0 0 0 0 ((60 : ℚ) : ℝ))
        (RunsWithRadicals wavyRates 0 0 0 0 ((60 : ℚ) : ℝ))
        (PresentIn ⟨build radicalReactions, 2⟩ (stateOf ![1, 1, 0, 0, 0])) "NO".toList :=
      .start ⟨1, hidx 1, by simp [stateOf]⟩
    have first : ∀ s ∈ names (chemProducts radicalReactions[0]), s ∉ heldConstant →
        Appears radicalReactions (RunsAlone wavyRates 0 0 0 0 ((60 : ℚ) : ℝ))
          (RunsWithRadicals wavyRates 0 0 0 0 ((60 : ℚ) : ℝ))
          (PresentIn ⟨build radicalReactions, 2⟩ (stateOf ![1, 1, 0, 0, 0])) s := by
      intro s hs hc
      refine .made (e := 0) (q := radicalReactions[0]) rfl (by decide +kernel) (hrun 0) ?_ hs hc
      have : names (chemReactants radicalReactions[0]) = ["CH3O2".toList, "NO".toList] := by decide +kernel
      rw [this]
      intro r hr
      simp only [List.mem_cons, List.not_mem_nil, or_false] at hr
      rcases hr with rfl | rfl
      · exact a0
      · exact a1
    have a3 := first "NO2".toList (by decide +kernel) (by decide +kernel)
    have hsecond : ∀ s ∈ names (chemProducts radicalReactions[1]), s ∉ heldConstant →
        Appears radicalReactions (RunsAlone wavyRates 0 0 0 0 ((60 : ℚ) : ℝ))
          (RunsWithRadicals wavyRates 0 0 0 0 ((60 : ℚ) : ℝ))
          (PresentIn ⟨build radicalReactions, 2⟩ (stateOf ![1, 1, 0, 0, 0])) s := by
      intro s hs hc
      refine .made (e := 1) (q := radicalReactions[1]) rfl (by decide +kernel) (hrun 1) ?_ hs hc
      have : names (chemReactants radicalReactions[1]) = ["NO2".toList] := by decide +kernel
      rw [this]
      intro r hr
      rw [List.mem_singleton] at hr
      rw [hr]
      exact a3
    fin_cases i
    · exact a0
    · exact a1
    · exact first _ (by decide +kernel) (by decide +kernel)
    · exact a3
    · exact hsecond _ (by decide +kernel) (by decide +kernel)
  · obtain ⟨rows, hr, hlen⟩ := radical_batches solve ![1, 0, 0, 0, 0]
    have hy0 : ∀ i : Fin 5, (0 : ℝ) ≤ ![1, 0, 0, 0, 0] i := by
      intro i; fin_cases i <;> simp
    refine ⟨rows, hr, hlen, fun row hrow i => ?_⟩
    rw [hall _ hy0 rows hr row hrow i]
    constructor
    · intro happ
      have hno : ∀ s, Appears radicalReactions (RunsAlone wavyRates 0 0 0 0 ((60 : ℚ) : ℝ))
          (RunsWithRadicals wavyRates 0 0 0 0 ((60 : ℚ) : ℝ))
          (PresentIn ⟨build radicalReactions, 2⟩ (stateOf ![1, 0, 0, 0, 0])) s → s = "CH3O2".toList := by
        have hreact : ∀ q ∈ radicalReactions, ∃ r ∈ names (chemReactants q), r ≠ "CH3O2".toList := by
          decide +kernel
        intro s hs
        induction hs with
        | @start s h =>
          obtain ⟨j, hj, hj0⟩ := h
          have hlt : j < 5 := by
            by_contra hc
            unfold stateOf at hj0
            rw [dif_neg hc] at hj0
            exact lt_irrefl _ hj0
          have hs' := hinv ⟨j, hlt⟩ s hj
          have : (⟨j, hlt⟩ : Fin 5) = 0 := by
            generalize hk : (⟨j, hlt⟩ : Fin 5) = k at *
            have : stateOf (![1, 0, 0, 0, 0] : Fin 5 → ℝ) j = ![1, 0, 0, 0, 0] k := by
              rw [← hk]; exact stateOf_fin _ (⟨j, hlt⟩ : Fin 5)
            rw [this] at hj0
            fin_cases k <;> simp at hj0 ⊢
          rw [this] at hs'
          exact hs'
        | made hqe _ _ _ _ _ ih =>
          obtain ⟨r, hr, hne⟩ := hreact _ (List.mem_of_getElem? hqe)
          exact absurd (ih r hr) hne
        | madeHelped hqe _ _ _ _ _ _ _ _ ih =>
          obtain ⟨r, hr, hne⟩ := hreact _ (List.mem_of_getElem? hqe)
          exact absurd (ih r hr) hne
      have := hno _ happ
      have h2 := hidx i
      rw [this] at h2
      have h3 := h2.symm.trans (hidx 0)
      exact Fin.ext (Option.some.inj h3)
    · rintro rfl
      exact .start ⟨0, hidx 0, by simp [stateOf]⟩

end PyBox
