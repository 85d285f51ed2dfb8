import Verif.Model.Surrogates
import Verif.Spec.Cli
/-!
# Specification: texts that UTF-8 cannot express (C123)

The characters from U+10F800 on stand for the lone surrogates U+D800 … U+DFFF, in their order (`Model/Surrogates.lean`).
-/

namespace Verif

/-- the text holds a lone surrogate -/
def HoldsLone (s : PyStr) : Prop := ∃ c ∈ s, 0x10F800 ≤ c.toNat

/-- the string that a list of code points and UTF-16 units stands for: a high and a low surrogate make one character, all other
surrogates are lone -/
inductive UnitsString : List Nat → PyStr → Prop
  | nil : UnitsString [] []
  | plain (n : Nat) (l : List Nat) (s : PyStr) (h : ¬ (0xD800 ≤ n ∧ n ≤ 0xDFFF)) (hs : UnitsString l s) :
      UnitsString (n :: l) (Char.ofNat n :: s)
  | pair (n m : Nat) (l : List Nat) (s : PyStr) (hn : 0xD800 ≤ n ∧ n ≤ 0xDBFF) (hm : 0xDC00 ≤ m ∧ m ≤ 0xDFFF) (hs : UnitsString l s) :
      UnitsString (n :: m :: l) (Char.ofNat (0x10000 + (n - 0xD800) * 0x400 + (m - 0xDC00)) :: s)
  | loneHigh (n : Nat) (l : List Nat) (s : PyStr) (hn : 0xD800 ≤ n ∧ n ≤ 0xDBFF)
      (hl : ∀ m, l.head? = some m → ¬ (0xDC00 ≤ m ∧ m ≤ 0xDFFF)) (hs : UnitsString l s) :
      UnitsString (n :: l) (Char.ofNat (0x10F800 + (n - 0xD800)) :: s)
  | loneLow (n : Nat) (l : List Nat) (s : PyStr) (hn : 0xDC00 ≤ n ∧ n ≤ 0xDFFF) (hs : UnitsString l s) :
      UnitsString (n :: l) (Char.ofNat (0x10F800 + (n - 0xD800)) :: s)

/-- the text holds no escape of a surrogate: no `\uD800` … `\uDFFF` (with digits of either case) -/
def NoSurrogateEscape (text : PyStr) : Prop :=
  ∀ before a b c d after n, text = before ++ '\\' :: 'u' :: a :: b :: c :: d :: after → parseHex [a, b, c, d] = some n →
    ¬ (0xD800 ≤ n ∧ n ≤ 0xDFFF)

/-- the MAUS that belongs to the input files, as `Generates`, for files with escapes of lone surrogates -/
def GeneratesLone (env : CliEnv) (fs : FsNode) (o : CliOptions) (maus : DeepAhb) : Prop :=
  ∃ flatText flat sghText sgh template root flat',
    TextAt env.files fs o.flatAhbPath flatText ∧ (jsonLoadsLone flatText).bind FlatAhb.load = .ok flat ∧
    TextAt env.files fs o.sghPath sghText ∧ (jsonLoadsLone sghText).bind Sgh.load = .ok sgh ∧
    ReadableAt env.files fs o.templatePath template ∧ env.parseXml template = .ok root ∧
    toDeepAhb (migLookup root) env.posStr flat sgh = .ok (flat', maus)

/-- the text that the tool is to write -/
def mausText (maus : DeepAhb) : PyStr := jsonDumps { indent := some 2, ensureAscii := false, sortKeys := true } maus.dump

end Verif
