import Verif.Props.Jacobian

/-!
# C23, C24: OpenMP directives in the generated Fortran
-/

namespace PyBox

open Spec

variable {κ : Type}

/-! ## C23 -/

/-- A line that is not a directive. -/
def Spec.IsCode : Line κ → Prop
  | .omp _ => False
  | _ => True

/-- A parallel region made of the given SINGLE blocks, which contain no directives. -/
structure Spec.Region (p : List (Line κ)) (blocks : List (List (Line κ))) : Prop where
  text : p = [.omp .parallel] ++ blocks.flatMap (fun b => .omp .single :: (b ++ [.omp .endSingle])) ++
    [.omp .endParallel]
  code : ∀ b ∈ blocks, ∀ l ∈ b, IsCode l

/-- The blocks after the first break: `cur` is the block being written. -/
theorem blocks_tail (bs : List Nat) : ∀ (groups : List (List (Line κ))) (n : Nat) (cur : List (Line κ)),
    n ≠ 0 → (∀ l ∈ cur, IsCode l) → (∀ g ∈ groups, ∀ l ∈ g, IsCode l) →
    ∃ blocks : List (List (Line κ)),
      cur ++ ((groups.zipIdx n).map (fun gi => ompBefore bs gi.2 ++ gi.1)).flatten ++ [.omp .endSingle] =
        (blocks.flatMap (fun b => .omp .single :: (b ++ [.omp .endSingle]))).tail ∧
      blocks ≠ [] ∧ (∀ b ∈ blocks, ∀ l ∈ b, IsCode l) ∧ blocks.flatten = cur ++ groups.flatten ∧
      blocks.length ≤ ((List.range' n groups.length).filter (· ∈ bs)).length + 1 := by
  intro groups
  induction groups with
  | nil =>
    intro n cur _ hc _
    refine ⟨[cur], by simp, by simp, ?_, by simp, by simp⟩
    intro b hb
    rw [List.mem_singleton] at hb
    subst hb; exact hc
  | cons g groups ih =>
    intro n cur hn hc hg
    have hg' : ∀ g ∈ groups, ∀ l ∈ g, IsCode l := fun g' h' => hg g' (List.mem_cons_of_mem _ h')
    have hgg : ∀ l ∈ g, IsCode l := hg g (List.mem_cons_self ..)
    simp only [List.zipIdx_cons, List.map_cons, List.flatten_cons, List.length_cons, List.range'_succ,
      List.filter_cons]
    unfold ompBefore
    rw [if_neg hn, List.nil_append]
    by_cases hb : n ∈ bs
    · obtain ⟨blocks, h1, h2, h3, h4, h5⟩ := ih (n + 1) g (Nat.succ_ne_zero n) hgg hg'
      refine ⟨cur :: blocks, ?_, by simp, ?_, ?_, ?_⟩
      · rw [if_pos hb]
        obtain ⟨b0, blocks, rfl⟩ := List.exists_cons_of_ne_nil h2
        simp only [List.flatMap_cons, List.cons_append, List.tail_cons] at h1 ⊢
        simp only [ompBefore] at h1
        simp only [List.append_assoc, List.cons_append, List.nil_append] at h1 ⊢
        rw [h1]
      · intro b hbm
        rcases List.mem_cons.1 hbm with rfl | hbm
        · exact hc
        · exact h3 b hbm
      · rw [List.flatten_cons, h4]
      · simp only [hb, decide_true, if_true, List.length_cons]; omega
    · obtain ⟨blocks, h1, h2, h3, h4, h5⟩ := ih (n + 1) (cur ++ g) (Nat.succ_ne_zero n)
        (fun l hl => (List.mem_append.1 hl).elim (hc l) (hgg l)) hg'
      refine ⟨blocks, ?_, h2, h3, by rw [h4, List.append_assoc], ?_⟩
      · rw [if_neg hb, List.nil_append, ← h1]
        simp only [ompBefore, List.append_assoc]
      · simp only [hb, decide_false]; exact h5

/-- The breaks below `n` are at most `cores - 2` many. -/
theorem breakList_length (n cores : Nat) : (breakList n cores).length = cores - 2 := by
  unfold breakList
  simp only [List.length_dropLast, List.length_drop, List.length_map, List.length_range]
  omega

theorem filter_mem_length (bs l : List Nat) (hl : l.Nodup) :
    (l.filter (· ∈ bs)).length ≤ bs.length := by
  apply List.Subperm.length_le
  apply List.subperm_of_subset (hl.filter _)
  intro a ha
  simpa using (List.mem_filter.1 ha).2

/-- C23 for any numbered lines without directives, at least one of them: the directives form one
parallel region, the blocks contain the lines exactly once and in order, and there are at most
`max 1 (cores - 1)` blocks. -/
theorem withOmp_region (n cores : Nat) {groups : List (List (Line κ))} (hne : groups ≠ [])
    (hcode : ∀ g ∈ groups, ∀ l ∈ g, IsCode l) :
    ∃ blocks, Region (withOmp (some (breakList n cores)) groups) blocks ∧
      blocks.flatten = groups.flatten ∧ blocks.length ≤ max 1 (cores - 1) := by
  obtain ⟨g, groups, rfl⟩ := List.exists_cons_of_ne_nil hne
  set bs := breakList n cores with hbs
  obtain ⟨blocks, h1, h2, h3, h4, h5⟩ := blocks_tail bs groups 1 g one_ne_zero
    (hcode g (List.mem_cons_self ..)) (fun g' h' => hcode g' (List.mem_cons_of_mem _ h'))
  obtain ⟨b0, blocks, rfl⟩ := List.exists_cons_of_ne_nil h2
  have hlen : bs.length = cores - 2 := breakList_length n cores
  simp only [List.flatMap_cons, List.cons_append, List.tail_cons] at h1
  by_cases h0 : 0 ∈ bs
  · refine ⟨[] :: b0 :: blocks, ⟨?_, ?_⟩, ?_, ?_⟩
    · unfold withOmp
      dsimp only
      simp only [List.zipIdx_cons, List.map_cons, List.flatten_cons, Nat.zero_add]
      unfold ompBefore at h1 ⊢
      rw [if_pos rfl, if_pos h0]
      simp only [List.flatMap_cons, List.cons_append, List.append_assoc, List.nil_append] at h1 ⊢
      have := congrArg (· ++ [Line.omp (κ := κ) .endParallel]) h1
      simp only [List.append_assoc, List.cons_append, List.nil_append] at this
      rw [this]
    · intro b hb
      rcases List.mem_cons.1 hb with rfl | hb
      · simp
      · exact h3 b hb
    · rw [List.flatten_cons, h4]; rfl
    · have : ((List.range' 1 groups.length).filter (· ∈ bs)).length + 1 ≤ bs.length := by
        have hf := filter_mem_length bs (0 :: List.range' 1 groups.length) (by
          rw [List.nodup_cons]
          exact ⟨by simp, List.nodup_range'⟩)
        rw [List.filter_cons] at hf
        simpa [h0] using hf
      simp only [List.length_cons] at h5 ⊢
      omega
  · refine ⟨b0 :: blocks, ⟨?_, h3⟩, ?_, ?_⟩
    · unfold withOmp
      dsimp only
      simp only [List.zipIdx_cons, List.map_cons, List.flatten_cons, Nat.zero_add]
      unfold ompBefore at h1 ⊢
      rw [if_pos rfl, if_neg h0]
      simp only [List.flatMap_cons, List.cons_append, List.append_assoc, List.nil_append] at h1 ⊢
      have := congrArg (· ++ [Line.omp (κ := κ) .endParallel]) h1
      simp only [List.append_assoc, List.cons_append, List.nil_append] at this
      rw [this]
    · rw [h4]; rfl
    · have hf := filter_mem_length bs (List.range' 1 groups.length) List.nodup_range'
      omega

/-- What C23 requires of a generator: with OpenMP on, at any number of cores, the program is one
parallel region whose blocks are the serial program cut into pieces. -/
def Spec.SplitsSerial (gen : Option Nat → Except PyErr (List (Line κ))) : Prop :=
  ∀ cores, ∃ serial par blocks, gen none = .ok serial ∧ gen (some cores) = .ok par ∧
    Region par blocks ∧ blocks.flatten = serial ∧ blocks.length ≤ max 1 (cores - 1)

theorem splits_of_groups (n : Nat) (groups : List (List (Line κ))) (hne : groups ≠ [])
    (hcode : ∀ g ∈ groups, ∀ l ∈ g, IsCode l) :
    SplitsSerial (fun cores => .ok (withOmp (cores.map (breakList n)) groups)) := by
  intro cores
  obtain ⟨blocks, h1, h2, h3⟩ := withOmp_region n cores hne hcode
  exact ⟨_, _, blocks, rfl, rfl, h1, h2, h3⟩

theorem toLine_code (e : Nat) (o : Option (List Tok)) : IsCode (toLine e o) := by
  cases o <;> trivial

theorem tendencyLineF_code (g : GenIn) (p : Str × Nat) : IsCode (tendencyLineF g p) := by
  unfold tendencyLineF
  split
  · trivial
  · split <;> trivial

theorem writeReactantsF_build (qs : List RawEqn) (cores : Option Nat) :
    writeReactantsF (build qs).gen qs.length cores =
      .ok (withOmp (cores.map (breakList qs.length)) ((List.range qs.length).map (fun e =>
        [shiftLine (toLine e (prodToks (facsOf qs e)))]))) := by
  rw [writeReactantsF_eq, writeReactantsPy_build]
  simp only [Except.map, List.map_map, Function.comp_def]

theorem shiftLine_code {l : Line Nat} (h : IsCode l) : IsCode (shiftLine l) := by
  cases l <;> trivial

/-- C23: for every mechanism with at least one reaction and every number of cores, the reactant,
tendency and Jacobian routines are well bracketed parallel regions, whose SINGLE blocks contain every
line of the serial program once and in order. -/
theorem C23_work_splitting {text : Str} {m : Mechanism} (h : extractMechanism text = .ok m)
    (hne : m.equations.toNat ≠ 0) (n : Nat) {ord : SetOrder} (ho : ord.Valid) :
    SplitsSerial (writeReactantsF m.tables.gen m.equations.toNat) ∧
    (m.tables.index ≠ [] → SplitsSerial (fun c => .ok (writeLossGainF m.tables.gen n c)) ∧
      SplitsSerial (writeJacobianF m.tables.gen ord n)) := by
  obtain ⟨qs, -, h2, h3⟩ := extract_reads h
  have h3' := h3
  rw [h2, ← h3]
  constructor
  · have : writeReactantsF (build qs).gen qs.length = fun cores => _ :=
      funext (writeReactantsF_build qs)
    rw [this]
    apply splits_of_groups
    · intro hh
      have := congrArg List.length hh
      simp at this
      exact hne (by rw [← h3', this]; rfl)
    · intro g hg l hl
      rw [List.mem_map] at hg
      obtain ⟨e, -, rfl⟩ := hg
      rw [List.mem_singleton] at hl
      subst hl
      exact shiftLine_code (toLine_code _ _)
  · intro hi
    have hi' : ∀ {β : Type} (f : Str × Nat → β), (build qs).index.map f ≠ [] := by
      intro β f hh
      exact hi (List.map_eq_nil_iff.1 hh)
    constructor
    · apply splits_of_groups
      · exact hi' _
      · intro g hg l hl
        rw [List.mem_map] at hg
        obtain ⟨e, -, rfl⟩ := hg
        rw [List.mem_singleton] at hl
        subst hl
        exact tendencyLineF_code _ _
    · have : writeJacobianF (build qs).gen ord n = fun cores => _ :=
        funext (writeJacobianF_build qs ho n)
      rw [this]
      apply splits_of_groups
      · exact hi' _
      · intro g hg l hl
        rw [List.mem_map] at hg
        obtain ⟨p, -, rfl⟩ := hg
        split at hl
        · simp at hl
        · rw [List.mem_map] at hl
          obtain ⟨x, -, rfl⟩ := hl
          trivial

example : extractMechanism sampleText = .ok ⟨build sampleReactions, 3⟩ ∧ (3 : Int).toNat ≠ 0 ∧
    (build sampleReactions).index ≠ [] ∧ keepOrder.Valid :=
  ⟨sample_parses, by decide, by decide +kernel, keepOrder_valid⟩

/-- With no reactions the generated text closes a region that was never opened. -/
theorem C23_empty (n cores : Nat) (blocks : List (List (Line κ))) :
    ¬ Region (withOmp (some (breakList n cores)) ([] : List (List (Line κ)))) blocks := by
  rintro ⟨h, -⟩
  simp [withOmp] at h

/-! ## C24 -/

variable [DecidableEq κ] [Subscript κ]

/-- The cell a line assigns. -/
def Spec.cellOf (lang : Lang) : Line κ → Option κ
  | .asg k _ => some (Subscript.offset lang k)
  | _ => none

/-- Cells a program assigns, in order. -/
def Spec.cells (lang : Lang) (p : List (Line κ)) : List κ := p.filterMap (cellOf lang)

/-- One thread after another takes the next line of its block: all the orders in which the lines of
several blocks can be executed. -/
inductive Spec.Interleaves {α : Type} : List (List α) → List α → Prop where
  | done {bs} : (∀ b ∈ bs, b = []) → Interleaves bs []
  | step {bs bs' x b xs} : Interleaves (bs ++ b :: bs') xs →
      Interleaves (bs ++ (x :: b) :: bs') (x :: xs)

omit [DecidableEq κ] [Subscript κ] in
theorem interleaves_perm {α : Type} {bs : List (List α)} {xs : List α} (h : Interleaves bs xs) :
    xs.Perm bs.flatten := by
  induction h with
  | @done bs hb =>
    have : bs.flatten = [] := by rw [List.flatten_eq_nil_iff]; exact hb
    rw [this]
  | @step bs bs' x b xs _ ih =>
    simp only [List.flatten_append, List.flatten_cons] at ih ⊢
    refine (List.Perm.cons x ih).trans ?_
    exact List.perm_middle.symm

theorem exec_perm (lang : Lang) (env : Env) {p p' : List (Line κ)} (h : p.Perm p') :
    (cells lang p).Nodup → ∀ a, exec lang env p a = exec lang env p' a := by
  induction h with
  | nil => intros; rfl
  | cons l _ ih =>
    intro hn a
    cases l with
    | blank => exact ih hn a
    | omp d => exact ih hn a
    | asg k rhs =>
      simp only [exec]
      have hn' : (Subscript.offset lang k :: cells lang _).Nodup := hn
      cases evalRhs lang env rhs with
      | none => rfl
      | some v => exact ih (List.nodup_cons.1 hn').2 _
  | swap l l' p =>
    intro hn a
    cases l with
    | blank => cases l' <;> rfl
    | omp d => cases l' <;> rfl
    | asg k rhs =>
      cases l' with
      | blank => rfl
      | omp d => rfl
      | asg k' rhs' =>
        have hn' : (Subscript.offset lang k' :: Subscript.offset lang k :: cells lang p).Nodup := hn
        have hne : Subscript.offset lang k' ≠ Subscript.offset lang k := by
          intro hh
          rw [List.nodup_cons] at hn'
          exact hn'.1 (hh ▸ List.mem_cons_self ..)
        simp only [exec]
        cases evalRhs lang env rhs with
        | none => cases evalRhs lang env rhs' <;> rfl
        | some v =>
          cases evalRhs lang env rhs' with
          | none => rfl
          | some v' =>
            dsimp only
            rw [Function.update_comm hne]
  | trans h1 _ ih1 ih2 =>
    intro hn a
    rw [ih1 hn a]
    exact ih2 ((h1.filterMap _).nodup_iff.1 hn) a

omit [DecidableEq κ] in
theorem cells_withOmp (lang : Lang) (breaks : Option (List Nat)) (groups : List (List (Line κ))) :
    cells lang (withOmp breaks groups) = cells lang groups.flatten := by
  cases breaks with
  | none => rfl
  | some bs =>
    unfold withOmp
    dsimp only
    have hdir : ∀ (k : Nat) (rest : List (Line κ)),
        cells lang (ompBefore bs k ++ rest) = cells lang rest := by
      intro k rest
      unfold ompBefore
      split <;> split <;> rfl
    have happ : ∀ p q : List (Line κ), cells lang (p ++ q) = cells lang p ++ cells lang q :=
      fun p q => List.filterMap_append
    have hgen : ∀ (gs : List (List (Line κ))) (n : Nat),
        cells lang (((gs.zipIdx n).map (fun gi => ompBefore bs gi.2 ++ gi.1)).flatten) =
          cells lang gs.flatten := by
      intro gs
      induction gs with
      | nil => intros; rfl
      | cons g gs ih =>
        intro n
        simp only [List.zipIdx_cons, List.map_cons, List.flatten_cons, List.append_assoc]
        rw [hdir, happ, happ, ih]
    rw [happ, hgen]
    exact List.append_nil _

/-- What C24 requires of a parallel program: no cell is assigned twice, and every order in which the
threads can execute the lines of the blocks gives the result of the serial program. -/
def Spec.RaceFree (gen : Option Nat → Except PyErr (List (Line κ))) : Prop :=
  ∀ cores serial par blocks, gen none = .ok serial → gen (some cores) = .ok par → Region par blocks →
    (cells .fortran par).Nodup ∧
    ∀ schedule, Interleaves blocks schedule → ∀ env a,
      exec .fortran env schedule a = exec .fortran env serial a

theorem exec_region (lang : Lang) (env : Env) {p : List (Line κ)} {blocks : List (List (Line κ))}
    (h : Region p blocks) (a : κ → ℝ) : exec lang env p a = exec lang env blocks.flatten a := by
  rw [h.text]
  have key : ∀ (bl : List (List (Line κ))) (rest : List (Line κ)) (a : κ → ℝ),
      exec lang env (bl.flatMap (fun b => .omp .single :: (b ++ [.omp .endSingle])) ++ rest) a =
        exec lang env (bl.flatten ++ rest) a := by
    intro bl
    induction bl with
    | nil => intros; rfl
    | cons b bl ih =>
      intro rest a
      simp only [List.flatMap_cons, List.flatten_cons, List.cons_append, List.append_assoc, exec]
      rw [exec_append, exec_append]
      congr 1
      funext c
      exact ih rest c
  simp only [List.cons_append, List.nil_append, exec]
  rw [key, exec_append]
  cases exec lang env blocks.flatten a <;> rfl

omit [DecidableEq κ] in
theorem cells_region (lang : Lang) {p : List (Line κ)} {blocks : List (List (Line κ))}
    (h : Region p blocks) : cells lang p = cells lang blocks.flatten := by
  rw [h.text]
  have happ : ∀ p q : List (Line κ), cells lang (p ++ q) = cells lang p ++ cells lang q :=
    fun p q => List.filterMap_append
  have key : ∀ (bl : List (List (Line κ))),
      cells lang (bl.flatMap (fun b => .omp .single :: (b ++ [.omp .endSingle]))) =
        cells lang bl.flatten := by
    intro bl
    induction bl with
    | nil => rfl
    | cons b bl ih =>
      rw [List.flatMap_cons, List.flatten_cons, happ, happ, ih]
      congr 1
      have : cells lang (Line.omp Omp.single :: (b ++ [Line.omp Omp.endSingle])) =
          cells lang (b ++ [Line.omp Omp.endSingle]) := rfl
      rw [this, happ]
      exact List.append_nil _
  rw [happ, happ, key]
  exact List.append_nil _

theorem raceFree_of_groups (n : Nat) (groups : List (List (Line κ)))
    (hn : (cells .fortran groups.flatten).Nodup) :
    RaceFree (fun cores => .ok (withOmp (cores.map (breakList n)) groups)) := by
  intro cores serial par blocks hs hp hr
  injection hs with hs
  injection hp with hp
  subst hs; subst hp
  have hc := cells_withOmp Lang.fortran ((some cores).map (breakList n)) groups
  refine ⟨by rw [hc]; exact hn, ?_⟩
  intro schedule hi env a
  have hp := interleaves_perm hi
  have hnd : (cells .fortran blocks.flatten).Nodup := by
    rw [← cells_region _ hr, hc]; exact hn
  rw [exec_perm .fortran env hp ((hp.filterMap _).nodup_iff.2 hnd), ← exec_region _ _ hr, exec_withOmp,
    exec_withOmp]

theorem index_nodup_values (qs : List RawEqn) : ((build qs).index.map Prod.snd).Nodup := by
  have hi := spInv_build qs
  rw [hi.index_eq, List.zipIdx_map_snd]
  exact List.nodup_range'

theorem flatten_singletons {α β : Type} (f : α → β) (l : List α) :
    (l.map (fun a => [f a])).flatten = l.map f := by
  induction l with
  | nil => rfl
  | cons a l ih => simp only [List.map_cons, List.flatten_cons, ih]; rfl

theorem cells_reactants (qs : List RawEqn) :
    (cells .fortran ((List.range qs.length).map (fun e =>
      [shiftLine (toLine e (prodToks (facsOf qs e)))])).flatten).Nodup := by
  rw [flatten_singletons]
  unfold cells
  rw [List.filterMap_map]
  apply List.Nodup.filterMap _ List.nodup_range
  intro e e' k h h'
  have key : ∀ e, k ∈ (cellOf .fortran ∘ fun e => shiftLine (toLine e (prodToks (facsOf qs e)))) e → k = e := by
    intro e h
    simp only [Function.comp] at h
    cases hp : prodToks (facsOf qs e) with
    | none => rw [hp] at h; simp [toLine, shiftLine, cellOf] at h
    | some ts => rw [hp] at h; simp [toLine, shiftLine, cellOf] at h; exact h.symm
  rw [← key e h, ← key e' h']

theorem cells_tendency (qs : List RawEqn) :
    (cells .fortran ((build qs).gen.index.map (fun p => [tendencyLineF (build qs).gen p])).flatten).Nodup := by
  rw [flatten_singletons]
  unfold cells
  rw [List.filterMap_map]
  have hv := index_nodup_values qs
  have hmem : ∀ p : Str × Nat, ∀ k, k ∈ (cellOf .fortran ∘ tendencyLineF (build qs).gen) p → k = p.2 := by
    intro p k h
    simp only [Function.comp] at h
    unfold tendencyLineF at h
    split at h
    · simp [cellOf] at h
    · split at h
      · simp [cellOf] at h; exact h.symm
      · simp [cellOf] at h
  have : ∀ l : List (Str × Nat), (l.map Prod.snd).Nodup → (l.filterMap (cellOf .fortran ∘ tendencyLineF (build qs).gen)).Nodup := by
    intro l hl
    have hs : (l.filterMap (cellOf .fortran ∘ tendencyLineF (build qs).gen)).Sublist (l.map Prod.snd) := by
      clear hl
      induction l with
      | nil => exact List.Sublist.refl _
      | cons p l ih =>
        rw [List.filterMap_cons, List.map_cons]
        cases hp : (cellOf .fortran ∘ tendencyLineF (build qs).gen) p with
        | none => exact ih.cons _
        | some k => rw [hmem p k hp]; exact ih.cons_cons _
    exact hs.nodup hl
  exact this _ hv

theorem cells_jacobian (qs : List RawEqn) {ord : SetOrder} (ho : ord.Valid) :
    (cells .fortran ((build qs).index.map (fun p =>
      if p.1 ∈ excluded then [] else (jacColumns (build qs).gen ord p.1).map (fun x =>
        Line.asg (p.2 + 1, (build qs).index.getD x 0 + 1) (jacRhsF qs ord ho p.1 x)))).flatten).Nodup := by
  have hcells : ∀ p : Str × Nat, cells .fortran (if p.1 ∈ excluded then [] else
      (jacColumns (build qs).gen ord p.1).map (fun x =>
        Line.asg (p.2 + 1, (build qs).index.getD x 0 + 1) (jacRhsF qs ord ho p.1 x))) =
      if p.1 ∈ excluded then [] else (jacColumns (build qs).gen ord p.1).map (fun x =>
        (p.2, (build qs).index.getD x 0)) := by
    intro p
    split
    · rfl
    · unfold cells
      rw [List.filterMap_map]
      induction jacColumns (build qs).gen ord p.1 with
      | nil => rfl
      | cons x l ih => rw [List.filterMap_cons, ih]; rfl
  have hflat : ∀ (l : List (Str × Nat)) (f : Str × Nat → List (Line (Nat × Nat))),
      cells .fortran ((l.map f).flatten) = l.flatMap (fun p => cells .fortran (f p)) := by
    intro l f
    induction l with
    | nil => rfl
    | cons p l ih =>
      rw [List.map_cons, List.flatten_cons, List.flatMap_cons, ← ih]
      exact List.filterMap_append
  rw [hflat, List.nodup_flatMap]
  constructor
  · intro p _
    rw [hcells]
    split
    · exact List.nodup_nil
    · apply List.Nodup.map_on _ (ho _).1
      intro x hx x' hx' he
      have h1 : (build qs).index.getD x 0 = (build qs).index.getD x' 0 := congrArg Prod.snd he
      obtain ⟨e, q, hq, -, hr⟩ := (mem_columns_build qs ho p.1 x).1 hx
      obtain ⟨e', q', hq', -, hr'⟩ := (mem_columns_build qs ho p.1 x').1 hx'
      obtain ⟨j, hj⟩ := index_of_reactant hq hr
      obtain ⟨j', hj'⟩ := index_of_reactant hq' hr'
      rw [getD_of_get? hj, getD_of_get? hj'] at h1
      subst h1
      exact index_inj' qs hj hj'
  · have hv := index_nodup_values qs
    unfold List.Nodup at hv
    rw [List.pairwise_map] at hv
    refine hv.imp ?_
    intro p p' hne
    dsimp only [Function.onFun]
    intro k hk hk'
    rw [hcells] at hk hk'
    split at hk
    · simp at hk
    · split at hk'
      · simp at hk'
      · rw [List.mem_map] at hk hk'
        obtain ⟨x, -, rfl⟩ := hk
        obtain ⟨x', -, he⟩ := hk'
        exact hne (congrArg Prod.fst he).symm

/-- C24: whatever the mechanism and the number of cores, in the generated reactant, tendency and
Jacobian routines no two lines write the same cell, and every interleaving of the SINGLE blocks gives
the serial result.  (Right-hand sides read only the routine's inputs.) -/
theorem C24_any_schedule {text : Str} {m : Mechanism} (h : extractMechanism text = .ok m)
    (n : Nat) {ord : SetOrder} (ho : ord.Valid) :
    RaceFree (writeReactantsF m.tables.gen m.equations.toNat) ∧
    RaceFree (fun c => .ok (writeLossGainF m.tables.gen n c)) ∧
    RaceFree (writeJacobianF m.tables.gen ord n) := by
  obtain ⟨qs, -, h2, h3⟩ := extract_reads h
  rw [h2, ← h3]
  refine ⟨?_, ?_, ?_⟩
  · have : writeReactantsF (build qs).gen qs.length = fun cores => _ :=
      funext (writeReactantsF_build qs)
    rw [this]
    exact raceFree_of_groups _ _ (cells_reactants qs)
  · exact raceFree_of_groups _ _ (cells_tendency qs)
  · have : writeJacobianF (build qs).gen ord n = fun cores => _ :=
      funext (writeJacobianF_build qs ho n)
    rw [this]
    exact raceFree_of_groups _ _ (cells_jacobian qs ho)

/-- Two blocks, one schedule that is not the serial order. -/
example : Interleaves [["a", "b"], ["c"]] ["a", "c", "b"] :=
  Interleaves.step (bs := []) (Interleaves.step (bs := [["b"]]) (Interleaves.step (bs := [])
    (Interleaves.done (by simp))))

end PyBox
