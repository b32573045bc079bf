import Verif.Parse.Render

/-!
# When does the textual stage accept an equation
-/

namespace PyBox
namespace Spec

/-- Some `+`-separated piece of `s` (a maximal stretch without `+`) equals `w`. -/
def IsPiece (w s : Str) : Prop :=
  ∃ pre post, s = pre ++ w ++ post ∧ '+' ∉ w ∧ (pre = [] ∨ ∃ p, pre = p ++ ['+']) ∧
    (post = [] ∨ ∃ p, post = '+' :: p)

/-- An equation body that reads `left = right : rate` (tabs ignored) with no blank reactant. -/
def WellFormed (body : Str) : Prop :=
  ∃ left right rate, removeChar '\t' body = left ++ '=' :: right ++ ':' :: rate ∧
    '=' ∉ left ∧ ':' ∉ left ∧ ':' ∉ right ∧
    ∀ w, IsPiece w left → ∃ c ∈ w, isSpace c = false

end Spec

open Spec

theorem mem_splitOn_iff (s w : Str) : w ∈ splitOn '+' s ↔ IsPiece w s := by
  induction s generalizing w with
  | nil =>
    simp only [splitOn, List.mem_singleton, IsPiece]
    constructor
    · rintro rfl; exact ⟨[], [], by simp⟩
    · rintro ⟨pre, post, h, -⟩
      simp only [List.nil_eq, List.append_eq_nil_iff] at h
      exact h.1.2
  | cons a s ih =>
    rw [splitOn]
    by_cases ha : a = '+'
    · subst ha
      simp only [if_true, List.mem_cons, ih]
      constructor
      · rintro (rfl | ⟨pre, post, h, h1, h2, h3⟩)
        · exact ⟨[], '+' :: s, by simp, by simp, .inl rfl, .inr ⟨s, rfl⟩⟩
        · refine ⟨'+' :: pre, post, by rw [h]; simp, h1, .inr ?_, h3⟩
          rcases h2 with rfl | ⟨p, rfl⟩
          · exact ⟨[], rfl⟩
          · exact ⟨'+' :: p, rfl⟩
      · rintro ⟨pre, post, h, h1, h2, h3⟩
        cases pre with
        | nil =>
          cases w with
          | nil => exact .inl rfl
          | cons b w =>
            simp only [List.nil_append, List.cons_append, List.cons.injEq] at h
            exact absurd (by rw [← h.1]; simp) h1
        | cons b pre =>
          simp only [List.cons_append, List.cons.injEq] at h
          refine .inr ⟨pre, post, h.2, h1, ?_, h3⟩
          rcases h2 with h2 | ⟨p, h2⟩
          · simp at h2
          · cases p with
            | nil => simp only [List.nil_append, List.cons.injEq] at h2; exact .inl h2.2
            | cons c p =>
              simp only [List.cons_append, List.cons.injEq] at h2
              exact .inr ⟨p, h2.2⟩
    · simp only [ha, if_false]
      cases hsp : splitOn '+' s with
      | nil => exact absurd hsp (splitOn_ne_nil _ _)
      | cons w0 ws =>
        simp only [List.mem_cons]
        -- the first piece of `s`
        have hfirst : ∃ post, s = w0 ++ post ∧ '+' ∉ w0 ∧ (post = [] ∨ ∃ p, post = '+' :: p) ∧
            (∀ v, v ∈ ws ↔ ∃ p pre post', post = p ++ v ++ post' ∧ '+' ∉ v ∧ p = pre ++ ['+'] ∧
              (post' = [] ∨ ∃ p, post' = '+' :: p)) := by
          clear ih ha
          induction s generalizing w0 ws with
          | nil =>
            simp only [splitOn, List.cons.injEq] at hsp
            obtain ⟨rfl, rfl⟩ := hsp
            refine ⟨[], rfl, by simp, .inl rfl, ?_⟩
            intro v
            simp only [List.not_mem_nil, false_iff]
            rintro ⟨p, pre, post', h, -, rfl, -⟩
            simp at h
          | cons b s ihs =>
            rw [splitOn] at hsp
            by_cases hb : b = '+'
            · subst hb
              simp only [if_true, List.cons.injEq] at hsp
              obtain ⟨rfl, rfl⟩ := hsp
              refine ⟨'+' :: s, rfl, by simp, .inr ⟨s, rfl⟩, ?_⟩
              cases hs2 : splitOn '+' s with
              | nil => exact absurd hs2 (splitOn_ne_nil _ _)
              | cons u us =>
                obtain ⟨post, h1, h2, h3, h4⟩ := ihs u us hs2
                intro v
                rw [List.mem_cons, h4]
                constructor
                · rintro (rfl | ⟨p, pre, post', h5, h6, h7, h8⟩)
                  · exact ⟨['+'], [], post, by rw [h1]; rfl, h2, rfl, h3⟩
                  · refine ⟨'+' :: u ++ p, '+' :: u ++ pre, post', ?_, h6, ?_, h8⟩
                    · rw [h1, h5]; simp
                    · rw [h7]; simp
                · rintro ⟨p, pre, post', h5, h6, h7, h8⟩
                  subst h7
                  cases pre with
                  | nil =>
                    left
                    simp only [List.nil_append, List.cons_append, List.cons.injEq, true_and] at h5
                    rw [h1] at h5
                    -- both are the first piece
                    rw [List.append_eq_append_iff] at h5
                    rcases h5 with ⟨k, e1, e2⟩ | ⟨k, e1, e2⟩
                    · cases k with
                      | nil => simpa using e1
                      | cons c k =>
                        exfalso
                        rcases h3 with rfl | ⟨p, rfl⟩
                        · simp at e2
                        · simp only [List.cons_append, List.cons.injEq] at e2
                          exact h6 (by rw [e1, ← e2.1]; simp)
                    · cases k with
                      | nil => simpa using e1.symm
                      | cons c k =>
                        exfalso
                        rcases h8 with rfl | ⟨p, rfl⟩
                        · simp at e2
                        · simp only [List.cons_append, List.cons.injEq] at e2
                          exact h2 (by rw [e1, ← e2.1]; simp)
                  | cons c pre =>
                    right
                    simp only [List.cons_append, List.append_assoc, List.cons.injEq] at h5
                    obtain ⟨rfl, h5⟩ := h5
                    rw [h1] at h5
                    rw [List.append_eq_append_iff] at h5
                    rcases h5 with ⟨k, e1, e2⟩ | ⟨k, e1, e2⟩
                    · refine ⟨k ++ ['+'], k, post', by rw [e2]; simp, h6, rfl, h8⟩
                    · cases k with
                      | nil =>
                        simp only [List.nil_append] at e2
                        exact ⟨['+'], [], post', by rw [← e2]; simp, h6, rfl, h8⟩
                      | cons c k =>
                        simp only [List.nil_append, List.cons_append, List.cons.injEq] at e2
                        exact absurd (by rw [e1, ← e2.1]; simp) h2
            · simp only [hb, if_false] at hsp
              cases hs2 : splitOn '+' s with
              | nil => exact absurd hs2 (splitOn_ne_nil _ _)
              | cons u us =>
                rw [hs2] at hsp
                simp only [List.cons.injEq] at hsp
                obtain ⟨rfl, rfl⟩ := hsp
                obtain ⟨post, h1, h2, h3, h4⟩ := ihs u us hs2
                refine ⟨post, by rw [h1]; rfl, ?_, h3, h4⟩
                simp only [List.mem_cons, not_or]
                exact ⟨fun e => hb e.symm, h2⟩
        obtain ⟨post, h1, h2, h3, h4⟩ := hfirst
        rw [h4]
        constructor
        · rintro (rfl | ⟨p, pre, post', h5, h6, h7, h8⟩)
          · refine ⟨[], post, by rw [h1]; rfl, ?_, .inl rfl, h3⟩
            simp only [List.mem_cons, not_or]
            exact ⟨fun e => ha e.symm, h2⟩
          · refine ⟨a :: w0 ++ p, post', by rw [h1, h5]; simp, h6, .inr ⟨a :: w0 ++ pre, ?_⟩, h8⟩
            rw [h7]; simp
        · rintro ⟨pre, post', h5, h6, h7, h8⟩
          rcases h7 with rfl | ⟨pre, rfl⟩
          · left
            simp only [List.nil_append] at h5
            rw [h1, ← List.cons_append, List.append_eq_append_iff] at h5
            rcases h5 with ⟨k, e1, e2⟩ | ⟨k, e1, e2⟩
            · cases k with
              | nil => simpa using e1
              | cons c k =>
                exfalso
                rcases h3 with rfl | ⟨p, rfl⟩
                · simp at e2
                · simp only [List.cons_append, List.cons.injEq] at e2
                  exact h6 (by rw [e1, ← e2.1]; simp)
            · cases k with
              | nil => simpa using e1.symm
              | cons c k =>
                exfalso
                rcases h8 with rfl | ⟨p, rfl⟩
                · simp at e2
                · simp only [List.cons_append, List.cons.injEq] at e2
                  have : '+' ∈ a :: w0 := by rw [e1, ← e2.1]; simp
                  rcases List.mem_cons.1 this with h | h
                  · exact ha h.symm
                  · exact h2 h
          · right
            rw [h1, ← List.cons_append, List.append_assoc, List.append_assoc,
              List.append_eq_append_iff] at h5
            rcases h5 with ⟨k, e1, e2⟩ | ⟨k, e1, e2⟩
            · exact ⟨k ++ ['+'], k, post', by rw [e2]; simp, h6, rfl, h8⟩
            · cases k with
              | nil =>
                simp only [List.nil_append] at e2
                exact ⟨['+'], [], post', by rw [← e2]; simp, h6, rfl, h8⟩
              | cons c k =>
                simp only [List.cons_append, List.nil_append, List.cons.injEq] at e2
                exfalso
                have : '+' ∈ a :: w0 := by rw [e1, ← e2.1]; simp
                rcases List.mem_cons.1 this with h | h
                · exact ha h.symm
                · exact h2 h

theorem mapM_firstWord_ok_iff (l ws : List Str) :
    l.mapM firstWord = .ok ws ↔
      (∀ x ∈ l, words x ≠ []) ∧ ws = l.map (fun x => (words x).headD []) := by
  induction l generalizing ws with
  | nil =>
    rw [List.mapM_nil]
    simp only [pure, Except.pure, Except.ok.injEq, List.not_mem_nil, false_implies, implies_true,
      List.map_nil, true_and]
    exact eq_comm
  | cons x l ih =>
    rw [List.mapM_cons]
    cases hx : words x with
    | nil => simp [firstWord, hx, bind, Except.bind]
    | cons w r =>
      simp only [firstWord, hx, bind, Except.bind]
      cases hl : l.mapM firstWord with
      | error e =>
        simp only [reduceCtorEq, List.mem_cons, forall_eq_or_imp, false_iff, not_and]
        rintro ⟨-, h⟩
        have := (ih (l.map (fun x => (words x).headD []))).2 ⟨h, rfl⟩
        rw [hl] at this; cases this
      | ok vs =>
        obtain ⟨h1, h2⟩ := (ih vs).1 hl
        simp only [pure, Except.pure, Except.ok.injEq, List.mem_cons, forall_eq_or_imp, hx, ne_eq,
          reduceCtorEq, not_false_eq_true, true_and, List.map_cons, List.headD_cons]
        constructor
        · rintro rfl; exact ⟨h1, by rw [h2]⟩
        · rintro ⟨-, rfl⟩; rw [h2]

/-- Exactly what the textual stage returns. -/
theorem parseEqn_ok_iff (body : Str) (q : RawEqn) :
    parseEqn body = .ok q ↔
      ∃ left right rate, removeChar '\t' body = left ++ '=' :: right ++ ':' :: rate ∧
        '=' ∉ left ∧ ':' ∉ left ∧ ':' ∉ right ∧
        (∀ w ∈ splitOn '+' left, words w ≠ []) ∧
        q = { reactants := (splitOn '+' left).map (fun w => parseTerm ((words w).headD []))
              products := ((splitOn '+' right).filterMap (fun w => (words w).head?)).map parseTerm
              rate := removeSpace rate } := by
  have hw : ∀ w : Str, words (stripBy (· == ' ') w) = words w :=
    fun w => words_stripBy _ isSpace_blank w
  unfold parseEqn
  dsimp only
  rcases h1 : split1 ':' (removeChar '\t' body) with ⟨eqn, rateO⟩
  rcases h2 : split1 '=' eqn with ⟨lhs, rhsO⟩
  dsimp only
  constructor
  · intro h
    cases rhsO with
    | none => simp at h
    | some rhs =>
      cases rateO with
      | none => simp at h
      | some rate =>
        obtain ⟨e1, e2⟩ := split1_some _ _ _ _ h1
        obtain ⟨e3, e4⟩ := split1_some _ _ _ _ h2
        simp only [bind, Except.bind] at h
        cases hm : ((splitOn '+' lhs).map (stripBy (· == ' '))).mapM firstWord with
        | error e => rw [hm] at h; simp at h
        | ok ws =>
          rw [hm] at h
          simp only [pure, Except.pure, Except.ok.injEq] at h
          rw [mapM_firstWord_ok_iff] at hm
          obtain ⟨hm1, hm2⟩ := hm
          refine ⟨lhs, rhs, rate, by rw [e1, e3], e4, ?_, ?_, ?_, ?_⟩
          · intro hc; apply e2; rw [e3]; simp [hc]
          · intro hc; apply e2; rw [e3]; simp [hc]
          · intro w hw'
            have := hm1 _ (List.mem_map_of_mem hw')
            rwa [hw] at this
          · rw [← h, hm2, removeSpace_strip]
            simp [List.filterMap_map, Function.comp_def, hw]
  · rintro ⟨left, right, rate, e1, e2, e3, e4, e5, rfl⟩
    rw [e1, split1_append] at h1
    · obtain ⟨rfl, rfl⟩ := Prod.mk.inj h1
      rw [split1_append _ _ _ e2] at h2
      obtain ⟨rfl, rfl⟩ := Prod.mk.inj h2
      dsimp only
      have hm : ((splitOn '+' left).map (stripBy (· == ' '))).mapM firstWord =
          .ok ((splitOn '+' left).map (fun w => (words w).headD [])) := by
        rw [mapM_firstWord_ok_iff]
        constructor
        · intro x hx
          rw [List.mem_map] at hx
          obtain ⟨w, hw', rfl⟩ := hx
          rw [hw]; exact e5 w hw'
        · simp [Function.comp_def, hw]
      rw [hm, removeSpace_strip]
      simp [bind, Except.bind, pure, Except.pure, List.filterMap_map, Function.comp_def, hw]
    · rw [List.mem_append, List.mem_cons]
      rintro (h | h | h)
      · exact e3 h
      · revert h; decide
      · exact e4 h

theorem parseEqn_isOk_iff (body : Str) : (∃ q, parseEqn body = .ok q) ↔ WellFormed body := by
  simp only [parseEqn_ok_iff, WellFormed]
  constructor
  · rintro ⟨q, left, right, rate, h1, h2, h3, h4, h5, -⟩
    refine ⟨left, right, rate, h1, h2, h3, h4, ?_⟩
    intro w hw
    have := h5 w ((mem_splitOn_iff _ _).2 hw)
    rw [Ne, words_eq_nil_iff] at this
    push Not at this
    obtain ⟨c, hc, hn⟩ := this
    exact ⟨c, hc, by simpa using hn⟩
  · rintro ⟨left, right, rate, h1, h2, h3, h4, h5⟩
    refine ⟨_, left, right, rate, h1, h2, h3, h4, ?_, rfl⟩
    intro w hw
    obtain ⟨c, hc, hn⟩ := h5 w ((mem_splitOn_iff _ _).1 hw)
    rw [Ne, words_eq_nil_iff]
    intro hall
    rw [hall c hc] at hn; cases hn

theorem parseEqn_reactants_ne {body : Str} {q : RawEqn} (h : parseEqn body = .ok q) :
    q.reactants ≠ [] := by
  rw [parseEqn_ok_iff] at h
  obtain ⟨left, right, rate, -, -, -, -, -, rfl⟩ := h
  simp [splitOn_ne_nil]

end PyBox
