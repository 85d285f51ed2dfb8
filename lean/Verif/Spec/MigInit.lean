import Verif.Spec.XmlText
import Verif.Spec.White
/-!
# Texts that name their own encoding
-/

namespace Verif

/-- the text begins with an XML declaration that names the encoding `e` -/
def DeclaresEncoding (text e : PyStr) : Prop :=
  ∃ as b v sta rest, text = py!"<?xml" ++ as ++ b ++ py!"?>" ++ rest ∧
    XmlAttrs as ((py!"version", v) :: (py!"encoding", e) :: sta) ∧ XmlBlank b ∧ '&' ∉ as ∧ XmlVersion v ∧ XmlEncoding e

/-- the text begins with an XML declaration that names no encoding -/
def DeclaresVersionOnly (text : PyStr) : Prop :=
  ∃ as b v sta rest, text = py!"<?xml" ++ as ++ b ++ py!"?>" ++ rest ∧ XmlAttrs as ((py!"version", v) :: sta) ∧ XmlBlank b ∧
    '&' ∉ as ∧ XmlVersion v ∧ (sta = [] ∨ sta = [(py!"standalone", py!"yes")] ∨ sta = [(py!"standalone", py!"no")])

/-- the text begins with `<?xml`, and a quoted `encoding` follows before the first `>` -/
def MentionsEncoding (text : PyStr) : Prop :=
  ∃ a w w1 w2 e rest : PyStr, ∃ q q' : Char,
    text = py!"<?xml" ++ a ++ w ++ py!"encoding" ++ w1 ++ '=' :: w2 ++ q :: e ++ q' :: rest ∧
    a ≠ [] ∧ '>' ∉ a ∧ w ≠ [] ∧ (∀ c ∈ w ++ w1 ++ w2, c ∈ whiteSpace) ∧ q ∈ ['"', '\''] ∧ q' ∈ ['"', '\''] ∧ '"' ∉ e ∧ '\'' ∉ e

end Verif
