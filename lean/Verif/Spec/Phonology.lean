import Verif.Spec.Text

/-!
# Lojban phonology, as the language definition states it

Written from the reference grammar (CLL chapters 3 and 4), not from the code.
-/

namespace Sneturfahi.Spec

/-- The vowel letters of the language definition for gismu: a e i o u (both cases). -/
def IsPlainVowel (c : Char) : Prop := c ∈ c!"aeiouAEIOU"

instance (c : Char) : Decidable (IsPlainVowel c) := by unfold IsPlainVowel; infer_instance

/-- A vowel letter or `y`. -/
def IsVowelOrY (c : Char) : Prop := IsPlainVowel c ∨ c = 'y' ∨ c = 'Y'

instance (c : Char) : Decidable (IsVowelOrY c) := by unfold IsVowelOrY; infer_instance

def IsVoiced (c : Char) : Prop := c ∈ c!"bdgjvz"
def IsUnvoiced (c : Char) : Prop := c ∈ c!"cfkpstx"

instance (c : Char) : Decidable (IsVoiced c) := by unfold IsVoiced; infer_instance
instance (c : Char) : Decidable (IsUnvoiced c) := by unfold IsUnvoiced; infer_instance

/-- The permissible consonant pairs of CLL 3.6 (lower-case letters): not equal, not one voiced and one
unvoiced (`l m n r` are neither), not both among `c j s z`, and none of `cx kx xc xk mz`. -/
def PermissiblePair (x y : Char) : Prop :=
  x ≠ y ∧ ¬ (IsVoiced x ∧ IsUnvoiced y) ∧ ¬ (IsUnvoiced x ∧ IsVoiced y) ∧
    ¬ (x ∈ c!"cjsz" ∧ y ∈ c!"cjsz") ∧ [x, y] ∉ [c!"cx", c!"kx", c!"xc", c!"xk", c!"mz"]

instance (x y : Char) : Decidable (PermissiblePair x y) := by unfold PermissiblePair; infer_instance

/-- The 48 permissible initial pairs of CLL 3.7. -/
def initialPairs : List (List Char) :=
  [c!"bl", c!"br", c!"cf", c!"ck", c!"cl", c!"cm", c!"cn", c!"cp", c!"cr", c!"ct", c!"dj", c!"dr",
   c!"dz", c!"fl", c!"fr", c!"gl", c!"gr", c!"jb", c!"jd", c!"jg", c!"jm", c!"jv", c!"kl", c!"kr",
   c!"ml", c!"mr", c!"pl", c!"pr", c!"sf", c!"sk", c!"sl", c!"sm", c!"sn", c!"sp", c!"sr", c!"st",
   c!"tc", c!"tr", c!"ts", c!"vl", c!"vr", c!"xl", c!"xr", c!"zb", c!"zd", c!"zg", c!"zm", c!"zv"]

/-- The forbidden triples of CLL 3.7. -/
def forbiddenTriples : List (List Char) := [c!"ndj", c!"ndz", c!"ntc", c!"nts"]

/-- Lower case. -/
def lower (c : Char) : Char := c.toLower

/-- The characters of Lojban words: the letters (no `q`, no `w`), the digits, apostrophe, `h` and the
comma. -/
def IsLojbanChar (c : Char) : Prop :=
  c ∈ c!"abcdefgijklmnoprstuvxyzABCDEFGIJKLMNOPRSTUVXYZ0123456789'h,"

instance (c : Char) : Decidable (IsLojbanChar c) := by unfold IsLojbanChar; infer_instance

end Sneturfahi.Spec
