import Verif.Spec.Messages

/-!
C97: the message of every error is the one catalogued for its numeric code, with the fields put in.
-/

namespace Oid4vci

open Serde Spec

/-- C97. The description of every error of the four enums is the text catalogued for its code, or, for
a transparent variant, for the code of what it carries, with the named fields filled in. -/
theorem C97_message (x : Ext) (a : AnyError) :
    ∃ text, valueOf ((messageSource a).information x).code.toNat messages = some text ∧
      fillIn (shownFields x (messageSource a)) none text = some (a.information x).description := by
  have hv : ∀ e : ValidationError,
      ∃ text, valueOf e.code.toNat messages = some text ∧ fillIn [] none text = some e.description := by
    intro e; cases e; exact ⟨_, rfl, rfl⟩
  have hj : ∀ e : JwtError, ∃ text, valueOf e.code.toNat messages = some text ∧
      fillIn (shownFields x (.jwt e)) none text = some (e.description x) := by
    intro e
    cases e <;>
      first
        | exact ⟨_, rfl, rfl⟩
        | (refine ⟨_, rfl, ?_⟩; simp only [JwtError.description, List.append_assoc]
           simp [fillIn, shownFields, valueOf])
  cases a with
  | validation e => exact hv e
  | jwt e => exact hj e
  | token e => cases e <;> first | exact hv _ | exact ⟨_, rfl, rfl⟩
  | issuer e =>
    cases e <;>
      first
        | exact hv _
        | exact hj _
        | exact ⟨_, rfl, rfl⟩
        | (refine ⟨_, rfl, ?_⟩
           simp only [messageSource, AnyError.information, CredentialIssuerError.information,
             ErrorInformation.new, CredentialIssuerError.description, List.append_assoc]
           simp [fillIn, shownFields, valueOf])

/-- C97. The catalogue gives one text per code, and exactly the codes of the variants that are not
transparent. -/
theorem C97_catalogue :
    (messages.map (·.1)).Nodup ∧
    (messages.map (·.1)) =
      [1] ++ (List.range' 102 11) ++ (List.range' 300 17) ++ (List.range' 401 7) ++ [409] := by
  constructor <;> decide

/-- C97. The code of every error, transparent or not, is the discriminant its enum declares for the variant. -/
theorem C97_code (x : Ext) (a : AnyError) :
    (discriminants a)[a.variant]? = some (a.information x).code.toNat := by
  cases a with
  | validation e => cases e; rfl
  | jwt e => cases e <;> rfl
  | token e => cases e <;> rfl
  | issuer e => cases e <;> rfl

end Oid4vci

namespace Oid4vci.Ex

open Spec

/-- A filled-in message. -/
example : fillIn [(str! "algorithm", str! "HS256")] none
      (str! "supplied algorithm, '{algorithm}' is not valid") =
    some (str! "supplied algorithm, 'HS256' is not valid") := by decide

/-- The message of an error carried by another is its own; its code is that of the carrier. -/
example (x : Ext) :
    ((AnyError.issuer (.jwtError (.nonceMismatch none (str! "n")))).information x).description =
      str! "Expected nonce was not found in the JWT" ∧
    ((AnyError.issuer (.jwtError (.nonceMismatch none (str! "n")))).information x).code = 101 :=
  ⟨rfl, rfl⟩

/-- The last variant of the access token errors, after the gap. -/
example (x : Ext) : ((AnyError.token .credentialOfferMustBeSupplied).information x).code.toNat = 409 :=
  (Option.some.inj (C97_code x (.token .credentialOfferMustBeSupplied))).symm

end Oid4vci.Ex
