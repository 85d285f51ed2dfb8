import Verif.Proofs.TreeLang
import Verif.Props.Provider
/-!
# C75: exactly the texts of the documented form are accepted as `.tree` files
-/

namespace Verif
open TreeSpec TreeGrammar

/-- **C75** `read_tree(text)` returns a token iff the text consists of this token and ignored characters before and behind it, and the
token is a tree as specified. No file is touched. -/
theorem C75_text (env : FileEnv) (w : FileWorld) (text token : PyStr) :
    readTreeFile env (.text text) w = (.ok token, w) ↔
      ∃ before behind, text = before ++ token ++ behind ∧ Blank before ∧ Blank behind ∧ Tree token := by
  have h : readTreeFile env (.text text) w = (larkParse text, w) := rfl
  rw [h, Prod.mk.injEq, and_iff_left rfl, larkParse_ok]
  simp only [all_isWS, lang_tree]

/-- **C75** every other text is refused with one of Lark's exceptions. -/
theorem C75_refused (env : FileEnv) (w : FileWorld) (text : PyStr)
    (h : ¬ ∃ before token behind, text = before ++ token ++ behind ∧ Blank before ∧ Blank behind ∧ Tree token) :
    readTreeFile env (.text text) w = (.error .other, w) := by
  have h' : readTreeFile env (.text text) w = (larkParse text, w) := rfl
  rw [h']
  cases hp : larkParse text with
  | ok token =>
    refine absurd ?_ h
    obtain ⟨a, b, h1⟩ := (C75_text env w text token).1 (by rw [h', hp])
    exact ⟨a, token, b, h1⟩
  | error e =>
    unfold larkParse at hp
    dsimp only at hp
    split at hp
    · split at hp
      · cases hp
      · injection hp with hp; rw [hp]
    · injection hp with hp; rw [hp]

/-- **C75** an argument that is neither a path nor a text: `ValueError`. -/
theorem C75_wrong_type (env : FileEnv) (w : FileWorld) : readTreeFile env .something w = (.error .valueError, w) := rfl

/-- **C75** `%ignore WS` does not apply inside of the tree: an accepted text has no blanks, tabs, form feeds or carriage returns
but at its beginning and at its end. -/
theorem C75_no_blanks_inside (token : PyStr) (h : Tree token) :
    ' ' ∉ token ∧ '\t' ∉ token ∧ Char.ofNat 12 ∉ token ∧ '\r' ∉ token := by
  have h := (lang_tree token).2 h
  exact ⟨Re.not_mem_of_avoids _ _ (by decide +kernel) h, Re.not_mem_of_avoids _ _ (by decide +kernel) h,
    Re.not_mem_of_avoids _ _ (by decide +kernel) h, Re.not_mem_of_avoids _ _ (by decide +kernel) h⟩

/-- **C75** `check_file_can_be_parsed_as_tree` succeeds iff the path names a readable UTF-8 file whose text (line ends unified) is a
tree with ignored characters around it. Nothing is changed and no other file is opened. -/
theorem C75_file (env : FileEnv) (w : FileWorld) (p : FsPath) :
    ((checkFileCanBeParsedAsTree env larkParse p w).1 = .ok () ↔
      ∃ before token behind, TextAt env w.fs p (before ++ token ++ behind) ∧ Blank before ∧ Blank behind ∧ Tree token) ∧
    (checkFileCanBeParsedAsTree env larkParse p w).2.fs = w.fs ∧
    ∃ l, (checkFileCanBeParsedAsTree env larkParse p w).2.log = w.log ++ l ∧ ∀ e ∈ l, e = .opened p := by
  obtain ⟨⟨l, h1, h2⟩, h3⟩ := checkTree_run env larkParse w p
  refine ⟨h3.trans ?_, by rw [h1], l, by rw [h1], h2⟩
  simp only [larkParse_ok, all_isWS, lang_tree]
  constructor
  · rintro ⟨t, tree, ht, a, b, rfl, ha, hb, h⟩
    exact ⟨a, tree, b, ht, ha, hb, h⟩
  · rintro ⟨a, tree, b, ht, ha, hb, h⟩
    exact ⟨_, tree, ht, a, b, rfl, ha, hb, h⟩

/-- **C75** `check_youngest_tree_is_parseable` on a readable directory succeeds iff the `.tree` file with the greatest name is such a
file. -/
theorem C75_youngest (env : FileEnv) (dir : FsPath) (w : FileWorld) (youngest : PyStr) (hr : env.readDenied dir = false)
    (h1 : w.fs.HasEntry dir youngest) (h2 : IsTreeFileName youngest)
    (h3 : ∀ name, w.fs.HasEntry dir name → IsTreeFileName name → name ≤ youngest) :
    (checkYoungestTreeIsParseable env larkParse dir w).1 = .ok () ↔
      ∃ before token behind, TextAt env w.fs (dir ++ [youngest]) (before ++ token ++ behind) ∧ Blank before ∧ Blank behind ∧
        Tree token := by
  rw [(C61_youngest env larkParse dir w youngest hr h1 h2 h3).1]
  simp only [larkParse_ok, all_isWS, lang_tree]
  constructor
  · rintro ⟨t, tree, ht, a, b, rfl, ha, hb, h⟩
    exact ⟨a, tree, b, ht, ha, hb, h⟩
  · rintro ⟨a, tree, b, ht, ha, hb, h⟩
    exact ⟨_, tree, ht, a, b, rfl, ha, hb, h⟩

/-! ## examples -/

/-- a small tree with two lines, a reference, a value pool and a condition -/
def exTreeText : PyStr :=
  py!"/:UNH[M;M;Man14],SG2[C;R]\nSG2:NAD[M;M;C*Man3+R;(NAD#1#0=MR)C*Man3{9.293}|(NAD#1#0!=MS)M]"

example : Tree exTreeText := by
  have hm : Mark py!"M" := by unfold Mark; decide
  have hc : Mark py!"C" := by unfold Mark; decide
  have hr : Mark py!"R" := by unfold Mark; decide
  have han : CharacterSet py!"an" := by unfold CharacterSet; decide
  have e0 : ∀ {m}, Composite m → DataElements m := fun h => .one (.one h)
  have hn : ∀ {n}, n = py!"3" ∨ n = py!"14" ∨ n = py!"1" ∨ n = py!"0" ∨ n = py!"2" → Number n := by
    rintro n (rfl | rfl | rfl | rfl | rfl) <;> exact ⟨by decide, by decide⟩
  have hentry : ∀ {n}, n = py!"9" ∨ n = py!"293" ∨ n = py!"MR" ∨ n = py!"MS" → Entry n := by
    rintro n (rfl | rfl | rfl | rfl) <;> exact ⟨by decide, by decide⟩
  have hk : ∀ {k}, k = py!"UNH" ∨ k = py!"NAD" → SegmentKey k := by
    rintro n (rfl | rfl) <;> exact ⟨by decide, by decide⟩
  have unh : SegmentText py!"UNH[M;M;Man14]" :=
    .segment (k := py!"UNH") (d := py!"M;M;Man14") (hk (by simp))
      (.more (p := py!"M;M") (.pair (a := py!"M") (e0 (.mark hm)) (.inl (e0 (.mark hm))))
        (.one (.conditioned (a := []) .none (.inl (e0 (.length hm han (n := py!"14") (hn (by simp))))))))
  have sg2 : Item py!"SG2[C;R]" := .reference (k := py!"SG2") (.sg (n := py!"2") (hn (by simp))) hc hr
  have cond1 : Conditioned py!"(NAD#1#0=MR)C*Man3{9.293}|" :=
    .closed (c := py!"NAD#1#0=MR") (d := py!"C*Man3{9.293}")
      (.one (.equal (k := py!"NAD") (a := py!"1") (b := py!"0") (v := py!"MR") (hk (by simp)) (hn (by simp)) (hn (by simp)) (hentry (by simp))))
      (.one (.more (p := py!"C") (.mark hc) (.one (.pool hm han (n := py!"3") (v := py!"9.293") (hn (by simp))
        (.more (p := py!"9") (hentry (by simp)) (.one (hentry (by simp))))))))
  have cond2 : Conditioned py!"(NAD#1#0!=MS)M" :=
    .open (c := py!"NAD#1#0!=MS") (d := py!"M")
      (.one (.unequal (k := py!"NAD") (a := py!"1") (b := py!"0") (v := py!"MS") (hk (by simp)) (hn (by simp)) (hn (by simp)) (hentry (by simp))))
      (e0 (.mark hm))
  have nad : SegmentText py!"NAD[M;M;C*Man3+R;(NAD#1#0=MR)C*Man3{9.293}|(NAD#1#0!=MS)M]" := by
    refine .segment (k := py!"NAD") (d := py!"M;M;C*Man3+R;(NAD#1#0=MR)C*Man3{9.293}|(NAD#1#0!=MS)M") (hk (by simp)) ?_
    refine .more (p := py!"M;M") (.pair (a := py!"M") (e0 (.mark hm)) (.inl (e0 (.mark hm)))) (.one ?_)
    refine .pair (a := py!"C*Man3+R") (b := py!"(NAD#1#0=MR)C*Man3{9.293}|(NAD#1#0!=MS)M") ?_ (.inr ?_)
    · exact .more (p := py!"C*Man3") (.more (p := py!"C") (.mark hc) (.one (.length hm han (n := py!"3") (hn (by simp)))))
        (.one (.one (.mark hr)))
    · exact .more cond1 (.more (s := []) cond2 .none)
  refine .tree (s := py!"UNH[M;M;Man14],SG2[C;R]\nSG2:NAD[M;M;C*Man3+R;(NAD#1#0=MR)C*Man3{9.293}|(NAD#1#0!=MS)M]") ?_
  refine .more (p := py!"UNH[M;M;Man14],SG2[C;R]") (.line (k := []) (s := py!"UNH[M;M;Man14]") (items := [py!"SG2[C;R]"])
    (.inl rfl) unh (by simpa using sg2)) (.one ?_)
  exact .line (k := py!"SG2:") (items := []) (.inr (.inr ⟨py!"SG2", .sg (n := py!"2") (hn (by simp)), rfl⟩)) nad (by simp)
example : larkParse (exTreeText ++ py!" \n") = .ok exTreeText := by decide +kernel
example : larkParse py!"/:UNH[M;M ;Man14]" = .error .other := by decide +kernel
example : larkParse py!"/:UNH[M;M;Man14],XY[C;R]" = .error .other := by decide +kernel

end Verif
