import Verif.Py.Unicode
/-!
# A backtracking regular expression engine with the semantics of Python's `re`

`run r st` lists *all* ways in which `r` can match at the state `st`, in the order in which a backtracking engine
tries them. The first element is therefore what Python's engine commits to. The patterns of the code base are given as
syntax trees (`Re`) next to the code that uses them.
-/

namespace Verif

/-- state of the matcher: absolute position, remaining input, captured groups (latest first) -/
structure MSt where
  pos : Nat
  rest : PyStr
  caps : List (Nat × PyStr) := []
  deriving DecidableEq

/-- regular expression syntax -/
inductive Re where
  | eps
  /-- one character of a class -/
  | cls (p : Char → Bool)
  | seq (a b : Re)
  /-- `a|b` -/
  | alt (a b : Re)
  /-- `a*` (greedy) or `a*?` (lazy) -/
  | star (greedy : Bool) (a : Re)
  /-- capturing group -/
  | grp (n : Nat) (a : Re)
  /-- `^` -/
  | bol
  /-- `$` (end, or before a trailing newline) -/
  | eol
  /-- `(?!a)` -/
  | nla (a : Re)

namespace Re

/-- literal character -/
def chr (c : Char) : Re := cls (fun x => x == c)
/-- literal string -/
def str : PyStr → Re
  | [] => eps
  | [c] => chr c
  | c :: s => seq (chr c) (str s)
/-- `a+` -/
def plus (a : Re) : Re := seq a (star true a)
/-- `a+?` -/
def plusLazy (a : Re) : Re := seq a (star false a)
/-- `a?` -/
def opt (a : Re) : Re := alt a eps
/-- `a{n}` -/
def rep : Nat → Re → Re
  | 0, _ => eps
  | n + 1, a => seq a (rep n a)

/-- iterate a matcher; every iteration has to consume input (as in Python, empty iterations do not loop) -/
def iter (f : MSt → List MSt) (greedy : Bool) : Nat → MSt → List MSt
  | 0, st => [st]
  | n + 1, st =>
    let more := ((f st).filter fun s => s.rest.length < st.rest.length).flatMap (iter f greedy n)
    if greedy then more ++ [st] else st :: more

/-- all matches of `r` at `st`, in backtracking order -/
def run : Re → MSt → List MSt
  | eps, st => [st]
  | cls p, st =>
    match st.rest with
    | [] => []
    | c :: s => if p c then [{ st with pos := st.pos + 1, rest := s }] else []
  | seq a b, st => (run a st).flatMap (run b)
  | alt a b, st => run a st ++ run b st
  | star g a, st => iter (run a) g st.rest.length st
  | grp n a, st =>
    (run a st).map fun s =>
      { s with caps := (n, st.rest.take (st.rest.length - s.rest.length)) :: s.caps }
  | bol, st => if st.pos = 0 then [st] else []
  | eol, st => if st.rest = [] ∨ st.rest = ['\n'] then [st] else []
  | nla a, st => if (run a st).isEmpty then [st] else []

/-- `re.match(r, s)`: the first match at position 0 -/
def pyMatch (r : Re) (s : PyStr) : Option MSt := (run r { pos := 0, rest := s }).head?

/-- `re.fullmatch(r, s)` (used by `attrs.validators.matches_re`): the first match that consumes everything -/
def fullMatch (r : Re) (s : PyStr) : Option MSt :=
  (run r { pos := 0, rest := s }).find? fun st => st.rest.isEmpty

/-- content of a capturing group (`None` if it did not participate) -/
def group (st : MSt) (n : Nat) : Option PyStr := (st.caps.find? fun p => p.1 = n).map Prod.snd

/-- `re.finditer(r, s)`: scan from left to right, continue behind each match -/
def findIterAux (r : Re) : Nat → Nat → PyStr → List MSt
  | 0, _, _ => []
  | fuel + 1, pos, rest =>
    match (run r { pos := pos, rest := rest }).head? with
    | some st =>
      if st.rest.length < rest.length then st :: findIterAux r fuel st.pos st.rest
      else match rest with
        | [] => [st]
        | _ :: rest' => st :: findIterAux r fuel (pos + 1) rest'
    | none =>
      match rest with
      | [] => []
      | _ :: rest' => findIterAux r fuel (pos + 1) rest'

/-- `re.finditer(r, s)` -/
def findIter (r : Re) (s : PyStr) : List MSt := findIterAux r (s.length + 1) 0 s

end Re
end Verif
