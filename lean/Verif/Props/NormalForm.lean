import Verif.Spec.NormalForm
import Verif.Props.Offer

/-! C121: the parameter of an offer URL is normalised, and how long it is. -/

namespace Oid4vci

open Spec CredentialIssuer

theorem unreserved_toNat {c : Char} (h : Unreserved c) : isUnreserved c.toNat = true := by
  rw [isUnreserved_iff]
  have e : ∀ d : Char, c = d → c.toNat = d.toNat := fun d h => by rw [h]
  simp only [Unreserved, char_le_iff] at h
  rcases h with h | h | h | h | h | h | h
  · exact .inr (.inl h)
  · exact .inr (.inr (.inl h))
  · exact .inl h
  all_goals (have := e _ h; simp at this; omega)

theorem hexUpper_of {h : Char} {a : Nat} (hu : UpperHex h) (hd : hexDigit h = some a) : a < 16 ∧ hexUpper a = h := by
  have key : ∀ n : Fin 128, ∀ c : Char, c.toNat = n.1 → UpperHex c → ∀ a, hexDigit c = some a → a < 16 ∧ hexUpper a = c := by
    intro n c hc
    have : c = Char.ofNat n.1 := by rw [← hc, Char.ofNat_toNat]
    subst this
    revert hc
    revert n
    decide +kernel
  refine key ⟨h.toNat, ?_⟩ h rfl hu a hd
  have h9 : '9'.toNat = 57 := rfl
  have hF : 'F'.toNat = 70 := rfl
  rcases hu with hu | hu <;> simp only [char_le_iff] at hu <;> omega

theorem normal_percentByte (b : UInt8) {s : Str} (hs : NormalForm s) : NormalForm (percentByte b ++ s) := by
  have hb := b.toNat_lt
  unfold percentByte
  split
  · rename_i h; exact .char (unreserved_ofNat h) hs
  · rename_i h
    refine .triplet (upperHex_hexUpper (by omega)) (upperHex_hexUpper (by omega))
      (hexDigit_hexUpper (by omega)) (hexDigit_hexUpper (by omega)) (fun c hc e => h ?_) hs
    rw [show b.toNat = c.toNat by omega]
    exact unreserved_toNat hc

theorem normal_flatMap (bs : Bytes) : NormalForm (bs.flatMap percentByte) := by
  induction bs with
  | nil => exact .nil
  | cons b bs ih => rw [List.flatMap_cons]; exact normal_percentByte b ih

theorem normal_of {s : Str} (h : NormalForm s) : ∃ bs : Bytes, s = bs.flatMap percentByte := by
  induction h with
  | nil => exact ⟨[], rfl⟩
  | @char c s hc _ ih =>
    obtain ⟨bs, rfl⟩ := ih
    have hn := unreserved_toNat hc
    have hlt : c.toNat < 256 := by rw [isUnreserved_iff] at hn; omega
    refine ⟨UInt8.ofNat c.toNat :: bs, ?_⟩
    rw [List.flatMap_cons]
    simp [percentByte, Nat.mod_eq_of_lt hlt, hn, Char.ofNat_toNat]
  | @triplet h l a b s hh hl ha hb hu _ ih =>
    obtain ⟨bs, rfl⟩ := ih
    obtain ⟨ha', rfl⟩ := hexUpper_of hh ha
    obtain ⟨hb', rfl⟩ := hexUpper_of hl hb
    have hlt : 16 * a + b < 256 := by omega
    refine ⟨UInt8.ofNat (16 * a + b) :: bs, ?_⟩
    have hn : ¬ isUnreserved (16 * a + b) = true := fun h =>
      hu _ (unreserved_ofNat h) (charOfNat_toNat (by rw [isUnreserved_iff] at h; omega))
    rw [List.flatMap_cons]
    have e1 : (16 * a + b) / 16 = a := by omega
    have e2 : (16 * a + b) % 16 = b := by omega
    simp [percentByte, Nat.mod_eq_of_lt hlt, hn, e1, e2]

/-- C121. A text is encoded as the one normalised payload that stands for it. -/
theorem C121_normal (s p : Str) : urlencode s = p ↔ NormalForm p ∧ urlDecode p = some s := by
  constructor
  · rintro rfl
    exact ⟨normal_flatMap _, urlDecode_urlencode s⟩
  · rintro ⟨h, hd⟩
    obtain ⟨bs, rfl⟩ := normal_of h
    simp only [urlDecode, percentDecode_flatMap, Option.bind_some] at hd
    rw [urlencode, utf8Encode_decode bs s hd]

/-- C121. The parameter of an offer URL is normalised, and it is the only normalised one for this offer. -/
theorem C121_offer (m : CredentialIssuerMetadata) (cs : CredentialOrIds) (endpoint : Option Str)
    (a : Option AuthorizedCodeFlow) (p : Option PreAuthorizedCodeFlow) (offer : CredentialOffer) (url : Str)
    (h : createOffer m cs endpoint a p = .ok (offer, url)) :
    ∃ before payload, url = before ++ str! "credential_offer=" ++ payload ∧
      before = (match endpoint with
        | none => str! "openid-credential-offer://"
        | some u => u ++ ['?']) ∧
      NormalForm payload ∧ ∀ payload', NormalForm payload' → urlDecode payload' = urlDecode payload → payload' = payload := by
  refine ⟨offerUrlPrefix endpoint, urlencode offer.ser.print, createOffer_url _ _ _ _ _ _ _ h, by cases endpoint <;> rfl,
    normal_flatMap _, fun q hq hd => ?_⟩
  rw [urlDecode_urlencode] at hd
  exact ((C121_normal _ _).2 ⟨hq, hd⟩).symm

theorem length_percentByte (b : UInt8) : (percentByte b).length + 2 * (if isUnreserved b.toNat then 1 else 0) = 3 := by
  unfold percentByte
  split <;> rfl

theorem unreservedOctets_eq (bs : Bytes) : unreservedOctets bs = bs.countP fun b => isUnreserved b.toNat := by
  unfold unreservedOctets
  congr 1
  funext b
  have : ∀ n : Fin 256, decide (∃ c ∈ str!
    "ABCDEFGHIJKLMNOPQRSTUVWXYZabcdefghijklmnopqrstuvwxyz0123456789-._~", c.toNat = n.1) = isUnreserved n.1 := by
    decide +kernel
  exact this ⟨b.toNat, b.toNat_lt⟩

/-- C121. One character for each unreserved octet of the text, three for each other. -/
theorem C121_length (s : Str) :
    (urlencode s).length + 2 * unreservedOctets (utf8Encode s) = 3 * (utf8Encode s).length := by
  rw [unreservedOctets_eq, urlencode]
  induction utf8Encode s with
  | nil => rfl
  | cons b bs ih =>
    have := length_percentByte b
    rw [List.flatMap_cons, List.length_append, List.countP_cons, List.length_cons]
    omega

/-- A text with an umlaut, a space and a tilde. -/
example : urlencode (str! "ü ~") = str! "%C3%BC%20~" ∧ unreservedOctets (utf8Encode (str! "ü ~")) = 1 := by decide +kernel

/-- Lower-case digits, or triplets for unreserved characters, are not normalised, though they stand for the same. -/
example : urlDecode (str! "%c3%bc%20%7E") = some (str! "ü ~") ∧ ¬ NormalForm (str! "%c3%bc%20%7E") :=
  ⟨by decide +kernel, fun h => absurd ((C121_normal (str! "ü ~") _).2 ⟨h, by decide +kernel⟩) (by decide +kernel)⟩

end Oid4vci
