import Verif.Gen.RoundedSum

/-!
# Rounding in whole files
-/

namespace PyBox

open Rl Spec

variable {κ : Type} [Place κ] [DecidableEq κ] [Subscript κ]

/-- A rounded run follows the exact one: each element is left alone by both, or computed by both from the same
right-hand side. -/
theorem rounded_follows {R : Rounding} {F : Frame} {env : Env} {ls : List (Nat × Str)} {a out : κ → ℝ}
    (h : RoundedCmds R F env ls a out) : ∃ q, ls.mapM (readCmd (κ := κ) F) = some q ∧ ∀ c,
      (out c = a c ∧ ∀ a0, runCmds F.lang env q a0 c = a0 c) ∨
      ∃ l ∈ ls, ∃ x e v, (readCmd (κ := κ) F l = some (.fill x) ∨
          ∃ k : κ, Subscript.offset F.lang k = c ∧ readCmd F l = some (.asg k x)) ∧
        KindsOf F.lang l.2 x e ∧ Ev R (env.vals F.lang) e v ∧ out c = v.toReal ∧
        ∀ a0, runCmds F.lang env q a0 c = x.val (env.vals F.lang) := by
  induction h with
  | nil a => exact ⟨[], rfl, fun c => .inl ⟨rfl, fun a0 => rfl⟩⟩
  | @fill l ls a out x e v hr hk he _ ih =>
    obtain ⟨q, hq, ih⟩ := ih
    refine ⟨.fill x :: q, by rw [List.mapM_cons, hr, hq]; rfl, fun c => .inr ?_⟩
    rcases ih c with ⟨h1, h2⟩ | ⟨l', hl', x', e', v', h1, h2, h3, h4, h5⟩
    · exact ⟨l, by simp, x, e, v, .inl hr, hk, he, h1, fun a0 => h2 _⟩
    · exact ⟨l', List.mem_cons_of_mem _ hl', x', e', v', h1, h2, h3, h4, fun a0 => h5 _⟩
  | @asg l ls a out k x e v hr hk he _ ih =>
    obtain ⟨q, hq, ih⟩ := ih
    refine ⟨.asg k x :: q, by rw [List.mapM_cons, hr, hq]; rfl, fun c => ?_⟩
    rcases ih c with ⟨h1, h2⟩ | ⟨l', hl', x', e', v', h1, h2, h3, h4, h5⟩
    · by_cases hc : Subscript.offset F.lang k = c
      · refine .inr ⟨l, by simp, x, e, v, .inr ⟨k, hc, hr⟩, hk, he, ?_, fun a0 => ?_⟩
        · rw [h1, hc, Function.update_self]
        · exact (h2 _).trans (by rw [hc, Function.update_self])
      · refine .inl ⟨?_, fun a0 => ?_⟩
        · rw [h1, Function.update_of_ne (Ne.symm hc)]
        · exact (h2 _).trans (Function.update_of_ne (Ne.symm hc) _ _)
    · exact .inr ⟨l', List.mem_cons_of_mem _ hl', x', e', v', h1, h2, h3, h4, fun a0 => h5 _⟩

omit [DecidableEq κ] [Subscript κ] in
/-- After the name of the array and a subscript come the `=` and the right-hand side. -/
theorem kRhs_asg [LawfulPlace κ] (hpl : ∀ k : κ, Tk.sym '=' ∉ LawfulPlace.tks k) {array : Str} (ha : NameOk array)
    {num : ℚ → Str} {w : ℚ → ℚ} (k : κ) {ts : List Tok} (h : RhsShape ts)
    (hp : Printed num w (ts.flatMap Tok.numbers)) {e : KEx} (he : kRhs (asgCode .fortran array num k ts) = some e) :
    parseExpr .fortran (rhsTks .fortran (ts.map (Tok.renum w))) = some e.erase := by
  have hl : lexLine .fortran (asgCode .fortran array num k ts) = _ := lex_asg .fortran ha k h hp
  rw [← kLexLine_erase] at hl
  obtain ⟨kts, hk, he'⟩ := Option.bind_eq_some_iff.1 he
  rw [hk] at hl
  have hl := Option.some.inj hl
  have key : ∀ (pre : List Tk) (us : List KTk) (post : List Tk), Tk.sym '=' ∉ pre →
      us.map KTk.erase = pre ++ .sym '=' :: post →
      ((us.dropWhile fun t => !decide (t = KTk.sym '=')).tail).map KTk.erase = post := by
    intro pre
    induction pre with
    | nil =>
      intro us post _ hu
      cases us with
      | nil => cases hu
      | cons u us =>
        obtain ⟨h1, h2⟩ := List.cons.inj hu
        have : u = .sym '=' := by cases u <;> simp [KTk.erase] at h1 <;> simp [h1]
        rw [List.dropWhile_cons, this, if_neg (by simp)]
        exact h2
    | cons t pre ih =>
      intro us post hn hu
      cases us with
      | nil => cases hu
      | cons u us =>
        obtain ⟨h1, h2⟩ := List.cons.inj hu
        have : u ≠ .sym '=' := by
          rintro rfl
          exact hn (by rw [← h1]; simp [KTk.erase])
        rw [List.dropWhile_cons, if_pos (by simp [this])]
        exact ih us post (fun hm => hn (List.mem_cons_of_mem _ hm)) h2
  have := key (.id array :: .sym (openOf .fortran) :: (LawfulPlace.tks k ++ [.sym (closeOf .fortran)])) kts
    (rhsTks .fortran (ts.map (Tok.renum w))) (by
      intro hm
      rcases List.mem_cons.1 hm with hm | hm
      · cases hm
      · rcases List.mem_cons.1 hm with hm | hm
        · exact absurd hm (by decide)
        · rcases List.mem_append.1 hm with hm | hm
          · exact hpl k hm
          · exact absurd (List.mem_singleton.1 hm) (by decide)) (by
      rw [hl]
      simp [Lang.backend])
  rw [← this, ← kExpr_erase, he']
  rfl

theorem kEx_lits (e : KEx) : e.Lits (fun _ => True) := by
  induction e with
  | num q k => trivial
  | var v => trivial
  | neg a ih => exact ih
  | bin o a b iha ihb => exact ⟨iha, ihb⟩
  | call f a ih => exact ih

/-- Each element of the array is left alone, set to zero by the first statement, or within the error of a right-hand
side. -/
theorem rounded_cells [LawfulPlace κ] (hpl : ∀ k : κ, Tk.sym '=' ∉ LawfulPlace.tks k) {L : Layout} {F : Frame}
    {init : List (Nat × Str)} (hM : Matches L F init)
    (hinit : ∀ l ∈ init, readCmd (κ := κ) F l = some (.fill (.num 0)) ∧
      ∀ x e, KindsOf F.lang l.2 x e → e = .num 0 (.real .double))
    {num : ℚ → Str} {date : Str} (hd : '\n' ∉ date) (n m : Nat)
    {p : List (Line κ)} (hp : ∀ l ∈ p, LineOk F.lang F.inputs l) (hn : Printed num id (p.flatMap Line.numbers))
    {env : Env}
    {a out : κ → ℝ} (h : RoundedFile ieee F n m (fileText L num date n m p) env a out) :
    ∃ exact, runFile F n m (fileText L num date n m p) env a = some exact ∧
      ∀ c, (out c = exact c ∧ (out c = a c ∨ out c = 0)) ∨ ∃ k ts x, Line.asg k ts ∈ p ∧ Subscript.offset F.lang k = c ∧
        parseExpr F.lang.backend (rhsTks F.lang.backend ts) = some x ∧ exact c = x.val (env.vals F.lang) ∧
        ∀ cost M, Close F.lang.kinds (env.vals F.lang) x cost M → Near cost M (exact c) (out c) := by
  obtain ⟨ls, hls, hrun⟩ := h
  rw [code_file hM hd n m p hp hn] at hls
  obtain rfl := List.append_cancel_right (List.append_cancel_left hls)
  obtain ⟨q, hq, hcell⟩ := rounded_follows hrun
  refine ⟨runCmds F.lang env q a, ?_, fun c => ?_⟩
  · unfold runFile
    rw [readFile_eq hM hd n m p hp hn, hq]
    rfl
  · rcases hcell c with ⟨h1, h2⟩ | ⟨l, hl, x, e, v, h1, h2, h3, h4, h5⟩
    · exact .inl ⟨h1.trans (h2 a).symm, .inl h1⟩
    · rcases List.mem_append.1 hl with hl | hl
      · obtain ⟨g1, g2⟩ := hinit l hl
        obtain rfl := g2 x e h2
        have hx : x = .num 0 := by
          rcases h1 with h1 | ⟨k, -, h1⟩
          · rw [g1] at h1; cases h1; rfl
          · rw [g1] at h1; cases h1
        subst hx
        cases h3 with
        | lit hR hx =>
          have hx := hx ⟨0, 0, by norm_num [Prec.bits], by norm_num, by norm_num⟩
          have h4 : out c = 0 := h4.trans (by rw [KVal.toReal, hx]; exact Rat.cast_zero)
          exact .inl ⟨h4.trans ((h5 a).trans Rat.cast_zero).symm, .inr h4⟩
      · obtain ⟨l', hl', hm⟩ := List.mem_flatMap.1 hl
        cases l' with
        | blank => cases hm
        | omp d => cases hm
        | asg k ts =>
          obtain ⟨hsh, -, -⟩ := hp _ hl'
          have hnum : Printed num id (ts.flatMap Tok.numbers) :=
            fun q hq => hn q (List.mem_flatMap.2 ⟨_, hl', hq⟩)
          have hmap : ts.map (Tok.renum id) = ts := by
            conv_rhs => rw [← List.map_id ts]
            refine List.map_congr_left fun t _ => ?_
            cases t with
            | fac f => cases f <;> rfl
            | _ => rfl
          have hm : l = (L.lang.indent, asgCode L.lang L.array num k ts) := List.mem_singleton.1 hm
          rw [hM.lang, hM.array] at hm
          subst hm
          have hread := read_asg F hM.name k hsh hnum F.lang.indent (by intro h; rw [h]; rfl)
          rw [hmap] at hread
          obtain ⟨hck, hrhs⟩ : Subscript.offset F.lang k = c ∧ readRhs F (rhsTks F.lang.backend ts) = some x := by
            rcases h1 with h1 | ⟨k', hk', h1⟩
            · rw [hread] at h1
              obtain ⟨x', -, h1⟩ := Option.map_eq_some_iff.1 h1
              cases h1
            · rw [hread] at h1
              obtain ⟨x', hx', h1⟩ := Option.map_eq_some_iff.1 h1
              cases h1
              exact ⟨hk', hx'⟩
          have hpx : parseExpr F.lang.backend (rhsTks F.lang.backend ts) = some x := by
            obtain ⟨x', hx', h1⟩ := Option.bind_eq_some_iff.1 hrhs
            split at h1
            · cases h1; exact hx'
            · cases h1
          have hk : e.erase = x ∧ e.Lits F.lang.kinds := by
            cases hl : F.lang with
            | python => rw [hl] at h2; exact h2
            | fortran =>
              rw [hl] at h2 hpx
              have h2 : kRhs (asgCode .fortran F.array num k ts) = some e := h2
              have := kRhs_asg hpl hM.name k hsh hnum h2
              rw [hmap] at this
              exact ⟨Option.some.inj (this.symm.trans hpx), kEx_lits e⟩
          refine .inr ⟨k, ts, x, hl', hck, hpx, h5 a, fun cost M hclose => ?_⟩
          rw [h4, h5]
          exact (hclose e hk.1 hk.2 v h3).1

end PyBox
