import Verif.Aerosol.PartRead

/-!
# The routine that is read from the text of `Partitioning.f90`
-/

namespace PyBox
namespace Ft

variable (ρ : Hole → ℕ)

/-- The statements before the loop over `include_index`: header, declarations, statements before the parallel loop,
its two first lines, its body. -/
def stHead : List (List Tk) := joinLines (tks ρ symHead)
def stDecls : List (List Tk) := ((stHead ρ).drop 2).take 24
def stPre : List (List Tk) := ((stHead ρ).drop 26).take 13
def stBody1 : List (List Tk) := (stHead ρ).drop 41

/-- The statements after it: body, after the parallel loop. -/
def stFoot : List (List Tk) := joinLines (tks ρ symFoot)
def stBody2 : List (List Tk) := (stFoot ρ).take 3
def stPost : List (List Tk) := ((stFoot ρ).drop 5).take 2

def stHeader : List Tk := (stHead ρ).getD 0 []
def stDir : List Tk := (stHead ρ).getD 39 []
def stDo : List Tk := (stHead ρ).getD 40 []

def endLoop : List Tk := [.omp, .id "end".toList, .id "parallel".toList, .id "do".toList]
def endRoutine : List Tk := [.id "end".toList, .id "subroutine".toList]

theorem stHead_eq : stHead ρ = stHeader ρ :: [.id "implicit".toList, .id "none".toList] ::
    (stDecls ρ ++ (stPre ρ ++ (stDir ρ :: stDo ρ :: stBody1 ρ))) := by kernel_rfl

theorem stFoot_eq : stFoot ρ = stBody2 ρ ++ (enddo :: endLoop :: (stPost ρ ++ [endRoutine])) := by kernel_rfl

/-- The names of the variables. -/
def partTab : List Str := (partDecls (fun _ => 0)).map Decl.name

theorem partTab_eq : (partDecls ρ).map Decl.name = partTab := by kernel_rfl

theorem header_parse : parseHeader "dydt_partition".toList (stHeader ρ) = some partArgNames := by kernel_rfl

theorem decls_all : (stDecls ρ).all (fun l => (parseDecl l).isSome) = true := by kernel_rfl

theorem decls_parse : ((stDecls ρ).mapM parseDecl).map List.flatten = some (partDecls ρ) := by kernel_rfl

theorem pre_all : (stPre ρ).all (fun l => !isDirective l) = true := by kernel_rfl

theorem pre_parse : (stPre ρ).mapM (parseStmt partTab) = some partPre := by kernel_rfl

theorem dir_parse : parseDirective partTab (stDir ρ) = some partPriv := by kernel_rfl

theorem do_parse : parseDo partTab (stDo ρ) = some (56, .int 1, .int (ρ .bins)) := by kernel_rfl

theorem body1_all : (stBody1 ρ).all (fun l => decide (l ≠ enddo)) = true := by kernel_rfl

theorem body1_parse : (stBody1 ρ).mapM (parseStmt partTab) = some partBody1 := by kernel_rfl

theorem body2_all : (stBody2 ρ).all (fun l => decide (l ≠ enddo)) = true := by kernel_rfl

theorem body2_parse : (stBody2 ρ).mapM (parseStmt partTab) = some partBody2 := by kernel_rfl

theorem post_parse : (stPost ρ).mapM (parseStmt partTab) = some partPost := by kernel_rfl

theorem gas_parse (p : ℕ × ℕ) : parseStmt partTab (gasTks p) = some (gasStmt p) := by kernel_rfl

theorem gas_parse_all (l : List (ℕ × ℕ)) : (l.map gasTks).mapM (parseStmt partTab) = some (l.map gasStmt) := by
  induction l with
  | nil => rfl
  | cons p l ih => rw [List.map_cons, List.mapM_cons, gas_parse, ih]; rfl

theorem pre_head : ∃ x xs, stPre ρ = x :: xs ∧ (parseDecl x).isSome = false :=
  ⟨(stPre ρ).getD 0 [], (stPre ρ).drop 1, by kernel_rfl, by kernel_rfl⟩

theorem dir_isDirective : isDirective (stDir ρ) = true := by kernel_rfl

theorem takeWhile_all {α : Type} {p : α → Bool} {a : List α} {x : α} {r : List α} (ha : a.all p = true)
    (hx : p x = false) : (a ++ x :: r).takeWhile p = a := by
  rw [List.takeWhile_append_of_pos (List.all_eq_true.mp ha), List.takeWhile_cons, hx]
  simp

theorem dropWhile_all {α : Type} {p : α → Bool} {a : List α} {x : α} {r : List α} (ha : a.all p = true)
    (hx : p x = false) : (a ++ x :: r).dropWhile p = x :: r := by
  rw [List.dropWhile_append_of_pos (List.all_eq_true.mp ha), List.dropWhile_cons, hx]
  simp

/-- The text is read as the routine of `Aerosol/PartAst.lean`. -/
theorem read_part {date : Str} (hd : '\n' ∉ date) (L : Aerosol.Layout) (total : ℕ) :
    readRoutine "dydt_partition".toList (partText date L total) = some (partRoutine L total) := by
  unfold readRoutine
  rw [statements_part hd]
  set ρ := holes L total with hρ
  have h1 : joinLines (tks ρ symHead) = stHead ρ := rfl
  have h2 : joinLines (tks ρ symFoot) = stFoot ρ := rfl
  rw [h1, h2, stHead_eq]
  obtain ⟨x, xs, hx, hxd⟩ := pre_head ρ
  simp only [Option.bind_eq_bind, Option.bind_some, List.cons_append, header_parse, if_true]
  have hsplit : stDecls ρ ++ (stPre ρ ++ stDir ρ :: stDo ρ :: stBody1 ρ) ++ L.incl.zipIdx.map gasTks ++ stFoot ρ =
      stDecls ρ ++ x :: (xs ++ (stDir ρ :: stDo ρ :: (stBody1 ρ ++ L.incl.zipIdx.map gasTks ++ stFoot ρ))) := by
    rw [hx]; simp only [List.cons_append, List.append_assoc]
  rw [hsplit, takeWhile_all (decls_all ρ) hxd, dropWhile_all (decls_all ρ) hxd]
  have hdp := decls_parse ρ
  rw [Option.map_eq_some_iff] at hdp
  obtain ⟨dd, hdd, hflat⟩ := hdp
  rw [hdd, Option.bind_some, hflat]
  unfold parseBody
  have hback : x :: (xs ++ (stDir ρ :: stDo ρ :: (stBody1 ρ ++ L.incl.zipIdx.map gasTks ++ stFoot ρ))) =
      stPre ρ ++ stDir ρ :: (stDo ρ :: (stBody1 ρ ++ L.incl.zipIdx.map gasTks ++ stFoot ρ)) := by
    rw [hx]; rfl
  have hnd : (!isDirective (stDir ρ)) = false := by rw [dir_isDirective]; rfl
  rw [hback, takeWhile_all (pre_all ρ) hnd, dropWhile_all (pre_all ρ) hnd, partTab_eq]
  dsimp only
  rw [pre_parse]
  have hbody : (stBody1 ρ ++ L.incl.zipIdx.map gasTks ++ stBody2 ρ).all (fun l => decide (l ≠ enddo)) = true := by
    rw [List.all_append, List.all_append, body1_all, body2_all, List.all_map, Bool.true_and, Bool.and_true,
      List.all_eq_true]
    intro p _
    simp [gasTks, enddo]
  have hloop : parseLoop partTab (stDir ρ :: stDo ρ :: (stBody1 ρ ++ L.incl.zipIdx.map gasTks ++ stFoot ρ)) =
      some (⟨56, .int 1, .int (ρ .bins), partBody1 ++ L.incl.zipIdx.map gasStmt ++ partBody2, partPriv⟩,
        stPost ρ ++ [endRoutine]) := by
    unfold parseLoop
    have he : (fun l => decide (l ≠ enddo)) enddo = false := by simp
    have hl : stBody1 ρ ++ L.incl.zipIdx.map gasTks ++ stFoot ρ =
        (stBody1 ρ ++ L.incl.zipIdx.map gasTks ++ stBody2 ρ) ++ enddo :: (endLoop :: (stPost ρ ++ [endRoutine])) := by
      rw [stFoot_eq]; simp only [List.append_assoc]
    rw [hl]
    simp only [dir_parse, do_parse, Option.bind_eq_bind, Option.bind_some]
    rw [takeWhile_all hbody he, dropWhile_all hbody he,
      mapM_append_some (mapM_append_some (body1_parse ρ) (gas_parse_all _)) (body2_parse ρ)]
    simp only [Option.bind_some, endLoop, if_true, Option.pure_def]
  simp only [Option.bind_eq_bind, Option.bind_some, hloop]
  have hlast : (stPost ρ ++ [endRoutine]).getLast? = some [.id "end".toList, .id "subroutine".toList] := by
    rw [List.getLast?_append]; rfl
  have hdl : (stPost ρ ++ [endRoutine]).dropLast = stPost ρ := List.dropLast_concat
  rw [if_pos hlast, hdl, post_parse]
  rfl

end Ft
end PyBox
