import Verif.Spec.Json
/-!
# Numbers as the JSON protocols accept them, base64 text
-/

namespace Thrift
namespace JsonSpec

/-- Sign, digits, fraction, exponent, where any of them may be missing and rows of
digits may be empty. -/
def LooseNumber (s : Bytes) : Prop :=
  ∃ sign int frac exp : Bytes, s = sign ++ int ++ frac ++ exp ∧
    (sign = [] ∨ sign = [43] ∨ sign = [45]) ∧ (∀ b ∈ int, IsDigit b) ∧
    (frac = [] ∨ ∃ d, frac = 46 :: d ∧ ∀ b ∈ d, IsDigit b) ∧
    (exp = [] ∨ ∃ e sg d, exp = e :: (sg ++ d) ∧ (e = 101 ∨ e = 69) ∧ (sg = [] ∨ sg = [43] ∨ sg = [45]) ∧ ∀ b ∈ d, IsDigit b)

/-- The alphabet of base64 (RFC 4648, table 1). -/
def IsBase64Letter (b : Byte) : Prop :=
  (65 ≤ b.toNat ∧ b.toNat ≤ 90) ∨ (97 ≤ b.toNat ∧ b.toNat ≤ 122) ∨ (48 ≤ b.toNat ∧ b.toNat ≤ 57) ∨ b = 43 ∨ b = 47

/-- Text in base64: groups of four letters, at the end up to two letters are
replaced by equals signs. -/
def IsBase64 (s : Bytes) : Prop :=
  s.length % 4 = 0 ∧ ∃ body pad : Bytes, s = body ++ pad ∧ (∀ b ∈ body, IsBase64Letter b) ∧ (pad = [] ∨ pad = [61] ∨ pad = [61, 61])

end JsonSpec
end Thrift
