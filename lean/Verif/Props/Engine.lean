import Verif.Lemmas.Engine
import Verif.Props.Codec
import Verif.Props.Padded
import Verif.Model.Jwt
import Verif.Lemmas.Shortest

/-!
Undecodable base64 (C114): which report it gets. The engine of the base64 crate works on blocks of bytes; that it
reads the same texts as the main model's decoding by groups is proved here as well.
-/

namespace Oid4vci
open Base64 Spec

/-- C114: a text is decoded exactly if it is the base64url text of some bytes, and then to those. -/
theorem C114_url_read (s : Str) (b : Bytes) : urlEngine s = .ok b ↔ IsBase64url b s := by
  rw [urlEngine_ok_iff]; exact (C44_base64url_rfc4648 b s).1

/-- C114: the same with padding. -/
theorem C114_standard_read (s : Str) (b : Bytes) : standardEngine s = .ok b ↔ IsBase64 b s := by
  rw [standardEngine_ok_iff]; exact (C89_base64_rfc4648 b s).1

/-- C114: every other text has a fault, and is reported with it. -/
theorem C114_url_reported (s : Str) (e : DecodeError) :
    urlEngine s = .err e ↔ DecodeFault base64urlAlphabet false (utf8Encode s) e :=
  engine_err_iff reads_url false _ e

/-- C114: the same with padding. -/
theorem C114_standard_reported (s : Str) (e : DecodeError) :
    standardEngine s = .err e ↔ DecodeFault base64Alphabet true (utf8Encode s) e :=
  engine_err_iff reads_standard true _ e

/-- C114: decoding finishes for every text, so a text is well-formed or has a fault, never both, and the fault is
determined. -/
theorem C114_url_exclusive (s : Str) :
    ((∃ b, IsBase64url b s) ∨ ∃ e, DecodeFault base64urlAlphabet false (utf8Encode s) e) ∧
    (∀ b e, IsBase64url b s → ¬ DecodeFault base64urlAlphabet false (utf8Encode s) e) ∧
    ∀ e e', DecodeFault base64urlAlphabet false (utf8Encode s) e →
      DecodeFault base64urlAlphabet false (utf8Encode s) e' → e = e' := by
  simp only [← C114_url_read, ← C114_url_reported]
  refine ⟨?_, fun b e h h' => ?_, fun e e' h h' => ?_⟩
  · cases h : urlEngine s with
    | ok b => exact .inl ⟨b, rfl⟩
    | err e => exact .inr ⟨e, rfl⟩
    | panic => exact absurd h (engine_total reads_url false _)
  · rw [h] at h'; cases h'
  · rw [h] at h'; cases h'; rfl

/-- C114: the same with padding. -/
theorem C114_standard_exclusive (s : Str) :
    ((∃ b, IsBase64 b s) ∨ ∃ e, DecodeFault base64Alphabet true (utf8Encode s) e) ∧
    (∀ b e, IsBase64 b s → ¬ DecodeFault base64Alphabet true (utf8Encode s) e) ∧
    ∀ e e', DecodeFault base64Alphabet true (utf8Encode s) e →
      DecodeFault base64Alphabet true (utf8Encode s) e' → e = e' := by
  simp only [← C114_standard_read, ← C114_standard_reported]
  refine ⟨?_, fun b e h h' => ?_, fun e e' h h' => ?_⟩
  · cases h : standardEngine s with
    | ok b => exact .inl ⟨b, rfl⟩
    | err e => exact .inr ⟨e, rfl⟩
    | panic => exact absurd h (engine_total reads_standard true _)
  · rw [h] at h'; cases h'
  · rw [h] at h'; cases h'; rfl

namespace Ex

example : urlEngine (str! "eyJh") = .ok [0x7b, 0x22, 0x61] := by decide +kernel
example : standardEngine (str! "ew==") = .ok [0x7b] := by decide +kernel
/-- Longer than a block. -/
example : urlEngine (str! "AQIDBAUGBwgJCg") = .ok [1, 2, 3, 4, 5, 6, 7, 8, 9, 10] := by decide +kernel
/-- A foreign byte in the first block, and in a later one. -/
example : urlEngine (str! "eyJ+eyJheyJh") = .err (.invalidByte 3 43) := by decide +kernel
example : urlEngine (str! "eyJheyJheyJ/") = .err (.invalidByte 11 47) := by decide +kernel
/-- A character outside ASCII is reported by its first octet. -/
example : urlEngine (str! "eyé") = .err (.invalidByte 2 0xC3) := by decide +kernel
/-- Padding. -/
example : urlEngine (str! "ew==") = .err .invalidPadding := by decide +kernel
example : standardEngine (str! "ew") = .err .invalidPadding := by decide +kernel
example : standardEngine (str! "e===") = .err (.invalidByte 1 61) := by decide +kernel
/-- Padding in a block before the last is foreign. -/
example : urlEngine (str! "eyJhew==eyJh") = .err (.invalidByte 6 61) := by decide +kernel
/-- A line break at the end, and a single symbol left over. -/
example : urlEngine (str! "eyJh\n") = .err (.invalidByte 4 10) := by decide +kernel
example : urlEngine (str! "eyJhe") = .err .invalidLength := by decide +kernel
/-- Bits left over. -/
example : urlEngine (str! "ex") = .err (.invalidLastSymbol 1 120) := by decide +kernel

/-- The faults behind three of these reports. -/
example : DecodeFault base64urlAlphabet false (utf8Encode (str! "ew==")) .invalidPadding :=
  (C114_url_reported _ _).1 (by decide +kernel)
example : DecodeFault base64urlAlphabet false (utf8Encode (str! "eyJ+eyJheyJh")) (.invalidByte 3 43) :=
  (C114_url_reported _ _).1 (by decide +kernel)
example : DecodeFault base64Alphabet true (utf8Encode (str! "ew")) .invalidPadding :=
  (C114_standard_reported _ _).1 (by decide +kernel)

end Ex

/-- C114: in a proof JWT the header is decoded first. If it cannot be, the request is rejected with its fault; if only
the payload cannot be, with the payload's. What follows the payload plays no part. -/
theorem C114_jwt (x : Ext) (header body : Str) (rest : List Str) (s : Str) (e : DecodeError)
    (hs : splitOn '.' s = header :: body :: rest) :
    (DecodeFault base64urlAlphabet false (utf8Encode header) e →
      ProofJwt.fromStr (withBase64 x) s = .err (.any e.message)) ∧
    (∀ b, IsBase64url b header → DecodeFault base64urlAlphabet false (utf8Encode body) e →
      ProofJwt.fromStr (withBase64 x) s = .err (.any e.message)) := by
  have hnone : ∀ t : Str, urlEngine t = .err e → base64urlDecode t = none := by
    intro t h
    cases hd : base64urlDecode t with
    | none => rfl
    | some b => rw [(urlEngine_ok_iff t b).2 hd] at h; cases h
  constructor
  · intro h
    rw [← C114_url_reported] at h
    rw [ProofJwt.fromStr, hs]
    simp only [hnone header h, withBase64, h]
  · intro b hb h
    rw [← C114_url_reported] at h
    rw [ProofJwt.fromStr, hs]
    simp only [(C44_base64url_rfc4648 b header).1.2 hb, hnone body h, withBase64, h]

namespace Spec

/-- The texts of the reports of undecodable base64 (base64 0.21, `DecodeError: Display`), numbers in decimal. -/
inductive DecodeText : DecodeError → Str → Prop
  | byte (offset : Nat) (byte : UInt8) (b o : Str) : IntegerText byte.toNat b → IntegerText offset o →
      DecodeText (.invalidByte offset byte) (str! "Invalid byte " ++ b ++ str! ", offset " ++ o ++ str! ".")
  | length : DecodeText .invalidLength (str! "Encoded text cannot have a 6-bit remainder.")
  | lastSymbol (offset : Nat) (byte : UInt8) (b o : Str) : IntegerText byte.toNat b → IntegerText offset o →
      DecodeText (.invalidLastSymbol offset byte)
        (str! "Invalid last symbol " ++ b ++ str! ", offset " ++ o ++ str! ".")
  | padding : DecodeText .invalidPadding (str! "Invalid padding")

end Spec

/-- C114: the text of a report. -/
theorem C114_message (e : DecodeError) (t : Str) : DecodeText e t ↔ e.message = t := by
  constructor
  · rintro (⟨o, b, tb, u, hb, ho⟩ | _ | ⟨o, b, tb, u, hb, ho⟩ | _)
    · rw [Json.integerText_iff] at hb ho; subst hb ho; rfl
    · rfl
    · rw [Json.integerText_iff] at hb ho; subst hb ho; rfl
    · rfl
  · rintro rfl
    cases e with
    | invalidByte o b => exact .byte o b _ _ (Json.integerText_iff.2 rfl) (Json.integerText_iff.2 rfl)
    | invalidLength => exact .length
    | invalidLastSymbol o b => exact .lastSymbol o b _ _ (Json.integerText_iff.2 rfl) (Json.integerText_iff.2 rfl)
    | invalidPadding => exact .padding

/-- C114: with the text in place of the report, a proof whose header or payload cannot be decoded. -/
theorem C114_jwt_text (x : Ext) (header body : Str) (rest : List Str) (s : Str) (e : DecodeError) (t : Str)
    (hs : splitOn '.' s = header :: body :: rest) (ht : DecodeText e t) :
    (DecodeFault base64urlAlphabet false (utf8Encode header) e →
      ProofJwt.fromStr (withBase64 x) s = .err (.any t)) ∧
    (∀ b, IsBase64url b header → DecodeFault base64urlAlphabet false (utf8Encode body) e →
      ProofJwt.fromStr (withBase64 x) s = .err (.any t)) :=
  (C114_message e t).1 ht ▸ C114_jwt x header body rest s e hs

namespace Ex

/-- The message of each kind of report. -/
example : (DecodeError.invalidByte 3 43).message = str! "Invalid byte 43, offset 3." := by decide +kernel
example : (DecodeError.invalidLastSymbol 1 120).message = str! "Invalid last symbol 120, offset 1." := by
  decide +kernel

/-- A payload with padding. -/
example (x : Ext) : ProofJwt.fromStr (withBase64 x) (str! "e30.ew==.c2ln") =
    .err (.any (str! "Invalid padding")) :=
  (C114_jwt x (str! "e30") (str! "ew==") [str! "c2ln"] _ .invalidPadding (by decide +kernel)).2 [0x7b, 0x7d]
    ((C114_url_read _ _).1 (by decide +kernel)) ((C114_url_reported _ _).1 (by decide +kernel))

/-- A payload with a single symbol left over. -/
example (x : Ext) : ProofJwt.fromStr (withBase64 x) (str! "e30.eyJhI") =
    .err (.any (str! "Encoded text cannot have a 6-bit remainder.")) :=
  (C114_jwt x (str! "e30") (str! "eyJhI") [] _ .invalidLength (by decide +kernel)).2 [0x7b, 0x7d]
    ((C114_url_read _ _).1 (by decide +kernel)) ((C114_url_reported _ _).1 (by decide +kernel))

/-- A header with a sign of the other alphabet; the payload is not looked at. -/
example (x : Ext) : ProofJwt.fromStr (withBase64 x) (str! "e3+.ew==") =
    .err (.any (str! "Invalid byte 43, offset 2.")) :=
  (C114_jwt x (str! "e3+") (str! "ew==") [] _ (.invalidByte 2 43) (by decide +kernel)).1
    ((C114_url_reported _ _).1 (by decide +kernel))

end Ex
end Oid4vci
