import Mathlib.Data.List.Infix
import Mathlib.Data.List.Count

/-!
# What is expected of the texts and the page of a review
-/

namespace Verif.HealthCard.Spec

/-- A text appears in another one, unchanged. -/
def Says (page text : List Char) : Prop := ∃ before after, page = before ++ text ++ after

/-- A name between back quotes appears in the text. -/
def Names (text : List Char) (n : String) : Prop := Says text (['`'] ++ n.toList ++ ['`'])

/-- The characters with a meaning in a page. -/
def Markup (c : Char) : Prop := c ∈ ['&', '<', '>', '\'', '"']

/-- The texts follow one another in the page, in this order. -/
def InOrder (page : List Char) : List (List Char) → Prop
  | [] => True
  | t :: l => ∃ before after, page = before ++ t ++ after ∧ InOrder after l

end Verif.HealthCard.Spec
