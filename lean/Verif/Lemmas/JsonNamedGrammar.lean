import Verif.Lemmas.JsonNamedRead
/-!
# The documents of the simple format are JSON
-/

namespace Thrift
namespace JsonN
open JsonProtocol JsonSpec JsonW JsonR

variable {L : JsonLib} {S : Schema}

theorem base64_string (b : Bytes) : IsString (inQuotes (base64 b)) := by
  rw [base64_eq]
  exact ⟨_, rfl, JsonB.clean_chars (JsonB.encode_clean b)⟩

variable (hS : S.Ok) (hN : Nameable S)
set_option linter.unusedSectionVars false
include hS hN

mutual
theorem ntext_value (hL : Lawful L) : ∀ (v : Val) (ty : Ty), NReadable S v ty → IsValue (ntext L S v ty)
  | .bool b, _, _ => by
    cases b
    · exact .false
    · exact .true
  | .byte b, _, _ => .number _ (decimal_number _)
  | .i16 b, _, _ => .number _ (decimal_number _)
  | .i32 b, _, _ => .number _ (decimal_number _)
  | .i64 b, _, _ => .number _ (decimal_number _)
  | .double v, _, _ => by rw [ntext]; exact double_value hL v
  | .str b, ty, h => by
    cases ty with
    | string =>
      rw [ntext]
      · exact .string _ (hL.quote_string b h)
      · simp
    | binary => rw [ntext]; exact .string _ (base64_string b)
    | _ => exact h.elim
  | .struct fs, ty, h => by
    cases ty with
    | struct k =>
      simp only [ntext]
      by_cases hn : fs = .nil
      · subst hn; exact .emptyObject
      · exact .object _ (nmembers_members hL fs k hn h)
    | _ => exact h.elim
  | .map kt vt ps, ty, h => by
    cases ty with
    | map ek ev =>
      simp only [ntext]
      have := npairs_elements hL ps ek ev (decimal ps.length) h (.number _ (decimal_number _))
      have := IsElements.more _ _ (.number _ (decimal_number vt.toNat)) this
      have := IsElements.more _ _ (.number _ (decimal_number kt.toNat)) this
      simpa using IsValue.array _ this
    | _ => exact h.elim
  | .set t vs, ty, h => by
    cases ty with
    | set e =>
      simp only [ntext]
      have := nelements_elements hL vs e (decimal vs.length) h (.number _ (decimal_number _))
      have := IsElements.more _ _ (.number _ (decimal_number t.toNat)) this
      simpa using IsValue.array _ this
    | _ => exact h.elim
  | .list t vs, ty, h => by
    cases ty with
    | list e =>
      simp only [ntext]
      have := nelements_elements hL vs e (decimal vs.length) h (.number _ (decimal_number _))
      have := IsElements.more _ _ (.number _ (decimal_number t.toNat)) this
      simpa using IsValue.array _ this
    | _ => exact h.elim
theorem nmembers_members (hL : Lawful L) : ∀ (fs : Fields) (k : Nat), fs ≠ .nil → NReadableF S (S.structs k) fs →
    IsMembers (nmembers L S (S.structs k) fs)
  | .nil, _, hn, _ => absurd rfl hn
  | .cons id v .nil, k, _, ⟨⟨m, hm, hid, hr⟩, _⟩ => by
    subst hid
    have hb := byId_member (hS k) hm
    rw [nmembers, fieldName_of hb, fieldTy_of hb]
    exact IsMembers.last _ _ (hL.quote_string _ (hN k m hm).1) (ntext_value hL v _ hr)
  | .cons id v (.cons id' v' r), k, _, ⟨⟨m, hm, hid, hr⟩, hrs⟩ => by
    subst hid
    have hb := byId_member (hS k) hm
    rw [nmembers, fieldName_of hb, fieldTy_of hb]
    have := IsMembers.more _ _ _ (hL.quote_string _ (hN k m hm).1) (ntext_value hL v _ hr)
      (nmembers_members hL (.cons id' v' r) k (by simp) hrs)
    simpa using this
theorem nelements_elements (hL : Lawful L) : ∀ (vs : Vals) (e : Ty) (x : Bytes), NReadableV S e vs → IsValue x →
    IsElements (x ++ nelements L S e vs)
  | .nil, e, x, _, hx => by simpa [nelements] using IsElements.last x hx
  | .cons v r, e, x, h, hx => by
    simpa [nelements] using IsElements.more x _ hx (nelements_elements hL r e _ h.2 (ntext_value hL v e h.1))
theorem npairs_elements (hL : Lawful L) : ∀ (ps : Pairs) (ek ev : Ty) (x : Bytes), NReadableP S ek ev ps → IsValue x →
    IsElements (x ++ npairs L S ek ev ps)
  | .nil, ek, ev, x, _, hx => by simpa [npairs] using IsElements.last x hx
  | .cons k v r, ek, ev, x, h, hx => by
    have := IsElements.more _ _ (ntext_value hL k ek h.1) (npairs_elements hL r ek ev _ h.2.2 (ntext_value hL v ev h.2.1))
    simpa [npairs] using IsElements.more x _ hx this
end

end JsonN
end Thrift
