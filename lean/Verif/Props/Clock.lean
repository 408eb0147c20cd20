import Verif.Props.Evaluate

/-!
C153. Only differences of times matter: with the clock and all instants that belong to it set forward or back alike, every
operation gives the same result, up to the instants in it. (Instants are those without leap seconds; for these see C110.)
-/

namespace Oid4vci

open Spec CredentialIssuer

/-- The settings with the creation of the nonce moved by `δ`. -/
def Spec.moveOptions (δ : Int) (o : EvaluateCredentialRequestOptions) : EvaluateCredentialRequestOptions :=
  { o with cNonce := o.cNonce.map fun c => { c with cNonceCreatedAt := c.cNonceCreatedAt + δ } }

/-- The error with its instants moved by `δ`. -/
def Spec.moveError (δ : Int) : CredentialIssuerError → CredentialIssuerError
  | .cNonceIsExpired now expiry => .cNonceIsExpired (now + δ) (expiry + δ)
  | e => e

/-- The proof with its period of validity moved by `δ`. -/
def Spec.moveProof (δ : Int) (j : ProofJwt) : ProofJwt :=
  { j with body := { j.body with notBefore := j.body.notBefore.map (· + δ), expiresAt := j.body.expiresAt.map (· + δ) } }

/-- The error about the period of validity with its instants moved by `δ`. -/
def Spec.moveJwtError (δ : Int) : JwtError → JwtError
  | .notYetValid a b => .notYetValid (a + δ) (b + δ)
  | .notValidAnymore a b => .notValidAnymore (a + δ) (b + δ)
  | e => e

/-- The last instant of the nonce is one that chrono can represent, before and after. -/
def Spec.Movable (δ : Int) (options : Option EvaluateCredentialRequestOptions) : Prop :=
  ∀ c, nonceOptions options = some c → nonceExpiry c ≤ Time.max ∧ nonceExpiry c + δ ≤ Time.max

theorem mapErr_bind {ε ε' α β : Type} (g : ε → ε') (a : Res ε α) (f : α → Res ε β) :
    (a >>= f).mapErr g = a.mapErr g >>= fun v => (f v).mapErr g := by
  cases a <;> rfl

theorem move_validation (δ : Int) {α : Type} (r : ValidationResult α) :
    (r.mapErr CredentialIssuerError.validationError).mapErr (moveError δ) = r.mapErr .validationError := by
  cases r <;> rfl

theorem move_jwt (δ : Int) {α : Type} (r : JwtResult α) :
    (r.mapErr CredentialIssuerError.jwtError).mapErr (moveError δ) = r.mapErr .jwtError := by
  cases r <;> rfl

theorem move_nonce (δ : Int) (now : Time) {options : Option EvaluateCredentialRequestOptions} (h : Movable δ options) :
    checkNonceLifetime (options.map (moveOptions δ)) (now + δ) =
      (checkNonceLifetime options now).mapErr (moveError δ) := by
  cases options with
  | none => rfl
  | some o =>
    obtain ⟨c, id⟩ := o
    cases c with
    | none => rfl
    | some c =>
      obtain ⟨h1, h2⟩ := h c rfl
      unfold nonceExpiry at h1 h2
      have e : ∀ a b d : Int, a + d + b = a + b + d := fun a b d => by omega
      have h2' : c.cNonceCreatedAt + δ + c.cNonceExpiresIn.toNat * Time.nsPerSec ≤ Time.max := by
        have := e c.cNonceCreatedAt (c.cNonceExpiresIn.toNat * 1000000000) δ
        exact this ▸ h2
      have hlt : ∀ a b d : Int, (a + d < b + d) ↔ a < b := fun a b d => by omega
      have e' : c.cNonceCreatedAt + δ + c.cNonceExpiresIn.toNat * Time.nsPerSec =
          c.cNonceCreatedAt + c.cNonceExpiresIn.toNat * Time.nsPerSec + δ := e _ _ _
      have h1' : c.cNonceCreatedAt + c.cNonceExpiresIn.toNat * Time.nsPerSec ≤ Time.max := h1
      simp only [checkNonceLifetime, moveOptions, Option.map_some, Option.bind_some, Time.addSeconds, if_pos h1', if_pos h2']
      show (if _ < now + δ then _ else _) = Res.mapErr _ (if _ < now then _ else _)
      rw [e']
      by_cases hn : c.cNonceCreatedAt + c.cNonceExpiresIn.toNat * Time.nsPerSec < now
      · rw [if_pos hn, if_pos ((hlt _ _ _).2 hn)]; rfl
      · rw [if_neg hn, if_neg (fun h => hn ((hlt _ _ _).1 h))]; rfl

/-- C153. The evaluation of a credential request. -/
theorem C153_evaluate (δ : Int) (x : Ext) (now : Time) (m : CredentialIssuerMetadata) (r : CredentialRequest)
    (offer : Option CredentialOffer) (asm : Option AuthorizationServerMetadata) (doc : Option x.Doc)
    (options : Option EvaluateCredentialRequestOptions) (h : Movable δ options) :
    evaluateCredentialRequest x (now + δ) m r offer asm doc (options.map (moveOptions δ)) =
      (evaluateCredentialRequest x now m r offer asm doc options).mapErr (moveError δ) := by
  have h1 : ((options.map (moveOptions δ)).bind (·.cNonce)).map (·.expectedCNonce) =
      (options.bind (·.cNonce)).map (·.expectedCNonce) := by
    rcases options with _ | ⟨_ | c, id⟩ <;> rfl
  have h2 : (options.map (moveOptions δ)).bind (·.clientId) = options.bind (·.clientId) := by
    rcases options with _ | ⟨_ | c, id⟩ <;> rfl
  have h3 : ∀ o, shouldValidateIss (options.map (moveOptions δ)) o = shouldValidateIss options o := by
    intro o
    rcases options with _ | ⟨_ | c, id⟩ <;> rfl
  unfold evaluateCredentialRequest
  simp only [mapErr_bind, move_validation, h1, h2, h3, move_nonce δ now h]
  congr 1; funext _
  cases offer with
  | none => rfl
  | some o =>
    cases asm with
    | some a => simp only [Res.okOr, mapErr_bind, move_validation]; rfl
    | none =>
      cases hp : r.proof with
      | none => simp only [Res.okOr, mapErr_bind]; rfl
      | some p =>
        simp only [Res.okOr, mapErr_bind, move_validation, move_jwt, apply_ite (Res.mapErr (moveError δ))]
        rfl

/-- C153. The period of validity of a proof. -/
theorem C153_verify (δ : Int) (j : ProofJwt) (now : Time) :
    (moveProof δ j).verify (now + δ) = (j.verify now).mapErr (moveJwtError δ) := by
  have hlt : ∀ a b d : Int, (a + d < b + d) ↔ a < b := fun a b d => by omega
  have h1 : ∀ t : Time, (now + δ < t + δ) ↔ now < t := fun t => hlt _ _ _
  have h2 : ∀ t : Time, (t + δ < now + δ) ↔ t < now := fun t => hlt _ _ _
  obtain ⟨hd, ⟨i, a, s, t, n, nb, ex⟩, sg⟩ := j
  cases nb <;> cases ex <;>
    simp only [ProofJwt.verify, moveProof, Option.map_some, Option.map_none, h1, h2, gt_iff_lt, mapErr_bind]
  all_goals repeat' split
  all_goals rfl

/-- C153. The response with a credential comes with the instant it was created at, and does not depend on it otherwise. -/
theorem C153_credential (δ : Int) (x : Ext) (now : Time) (r : CredentialRequest) (c : Option CredentialOrAcceptanceToken)
    (nonce : Option CNonce) :
    createCredentialSuccessResponse x (now + δ) r c nonce =
      (do let p ← createCredentialSuccessResponse x now r c nonce; .ok (p.1, p.2 + δ)) := by
  unfold createCredentialSuccessResponse
  cases r.validate x with
  | ok _ =>
    rcases c with _ | c | t
    · rfl
    · cases h : CredentialFormatProfileOrEncoded.tryFrom c <;> simp [h]
    · rfl
  | err _ => rfl
  | panic => rfl

/-- C153. The same for the response with an access token. -/
theorem C153_token (δ : Int) (now : Time) (token : Str) (type : AccessTokenType) (expires : Option UInt32)
    (scope nonce : Option Str) (nonceExpires : Option UInt32) (pending : Option Bool) (interval : Option UInt32) :
    AccessToken.createAccessTokenSuccessResponse (now + δ) token type expires scope nonce nonceExpires pending interval =
      (do
        let p ← AccessToken.createAccessTokenSuccessResponse now token type expires scope nonce nonceExpires pending interval
        .ok (p.1, p.2 + δ)) := rfl

namespace Ex

/-- C153: the request of the example, a day later, with a nonce made a day later. -/
example : evaluateCredentialRequest ext (1000 + 86400000000000) metadata request (some pinOffer) none (some didDoc)
      (options.map (moveOptions 86400000000000)) =
    (evaluateCredentialRequest ext 1000 metadata request (some pinOffer) none (some didDoc) options).mapErr
      (moveError 86400000000000) :=
  C153_evaluate 86400000000000 ext 1000 metadata request (some pinOffer) none (some didDoc) options fun c hc => by
    cases hc; decide +kernel

end Ex

end Oid4vci
