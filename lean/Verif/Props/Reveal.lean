import Verif.Spec.Reveal
import Verif.Props.Report

/-! C133: what the report of a rejected credential request tells about the nonce. -/

namespace Oid4vci

open Spec CredentialIssuer

section
variable (x : Ext) (now : Time) (m : CredentialIssuerMetadata) (r : CredentialRequest)
  (offer : Option CredentialOffer) (asm : Option AuthorizationServerMetadata) (doc : Option x.Doc)
  (lifetime : UInt32) (created : Time) (client : Option Str)

/-- C133. While the nonce is wrong, the report is the same whatever nonce is expected. -/
def C133_statement : Prop :=
  ∀ (x : Ext) (now : Time) (m : CredentialIssuerMetadata) (r : CredentialRequest)
    (offer : Option CredentialOffer) (asm : Option AuthorizationServerMetadata) (doc : Option x.Doc)
    (lifetime : UInt32) (created : Time) (client : Option Str) (n n' : Str), Lacks x r n → Lacks x r n' →
    reportOf (·.information x) (evaluateCredentialRequest x now m r offer asm doc (expecting lifetime created client n)) =
      reportOf (·.information x) (evaluateCredentialRequest x now m r offer asm doc (expecting lifetime created client n'))

variable {now lifetime created client} in
/-- The lifetime does not depend on the nonce. -/
theorem timely_expecting {n : Str} (h : Timely now (expecting lifetime created client n)) (n' : Str) :
    Timely now (expecting lifetime created client n') := by
  rintro c ⟨⟩
  exact h ⟨lifetime, n, created⟩ rfl

/-- A wrong nonce: the request is rejected for it, or for something before, whatever nonce is expected. -/
theorem wrong_nonce (n n' : Str) (h : Lacks x r n) (h' : Lacks x r n') :
    (∃ jwt, NonceCompared x now m r offer asm (expecting lifetime created client n) jwt ∧
      ∀ k ∈ [n, n'], evaluateCredentialRequest x now m r offer asm doc (expecting lifetime created client k) =
        .err (.jwtError (.nonceMismatch (some k) jwt.body.nonce))) ∨
    ((¬ ∃ jwt, NonceCompared x now m r offer asm (expecting lifetime created client n) jwt) ∧
      evaluateCredentialRequest x now m r offer asm doc (expecting lifetime created client n) =
        evaluateCredentialRequest x now m r offer asm doc (expecting lifetime created client n')) := by
  by_cases hc : ∃ jwt, NonceCompared x now m r offer asm (expecting lifetime created client n) jwt
  · left
    obtain ⟨jwt, hc⟩ := hc
    refine ⟨jwt, hc, fun k hk => (C60_evaluate_errors ..).2
      (.nonce jwt hc.configured (timely_expecting hc.timely k) hc.carries hc.typ fun he => ?_)⟩
    have hk : k = n ∨ k = n' := by simpa using hk
    rcases hk with rfl | rfl
    · exact h jwt hc.carries (Option.some.inj he).symm
    · exact h' jwt hc.carries (Option.some.inj he).symm
  · refine .inr ⟨hc, ?_⟩
    cases he : evaluateCredentialRequest x now m r offer asm doc (expecting lifetime created client n) with
    | ok a =>
      obtain ⟨-, -, -, p, jwt, c, h1, h2, -, h3, h4, -⟩ := C22_bound _ _ _ _ _ _ _ _ _ he
      cases h3
      exact absurd h4 (h jwt ⟨p, h1, h2⟩)
    | panic =>
      obtain ⟨hm, ha, o, ho, hp⟩ := (C46_evaluate_panics_iff ..).1 he
      refine ((C46_evaluate_panics_iff ..).2 ⟨hm, ha, o, ho, .inl ?_⟩).symm
      rcases hp with ⟨c, h3, h4⟩ | ⟨jwt, kid, url, d, hb, -⟩
      · cases h3
        exact ⟨_, rfl, h4⟩
      · obtain ⟨c, h3, h4, -⟩ := hb.nonce
        cases h3
        exact absurd h4 (h jwt hb.proof)
    | err e =>
      refine ((C60_evaluate_errors ..).2 ?_).symm
      have no : ∀ jwt, ¬ NonceCompared x now m r offer asm (expecting lifetime created client n) jwt :=
        fun jwt hj => hc ⟨jwt, hj⟩
      cases (C60_evaluate_errors ..).1 he with
      | ids h1 => exact .ids h1
      | noOffer h1 h2 => exact .noOffer h1 h2
      | server h1 h2 h3 => exact .server h1 h2 h3
      | expired c h1 h2 h3 h4 =>
        cases h2
        exact .expired ⟨lifetime, n', created⟩ h1 rfl h3 h4
      | noProof h1 h2 h3 => exact .noProof h1 (timely_expecting h2 n') h3
      | malformed p e h1 h2 h3 h4 => exact .malformed p e h1 (timely_expecting h2 n') h3 h4
      | typ jwt h1 h2 h3 h4 => exact .typ jwt h1 (timely_expecting h2 n') h3 h4
      | nonce jwt h1 h2 h3 h4 h5 => exact absurd ⟨h1, h2, h3, h4⟩ (no jwt)
      | client o jwt h1 h2 h3 h4 h5 h6 h7 => exact absurd ⟨h1, h3, h4, h5⟩ (no jwt)
      | aud o jwt h1 h2 h3 h4 h5 h6 h7 h8 => exact absurd ⟨h1, h3, h4, h5⟩ (no jwt)
      | key o jwt e h1 h2 => exact absurd ⟨h1.configured, h1.timely, h1.carries, h1.typ⟩ (no jwt)
      | signature o jwt h1 h2 h3 => exact absurd ⟨h1.configured, h1.timely, h1.carries, h1.typ⟩ (no jwt)
      | inlineKey o jwt k h1 h2 h3 h4 => exact absurd ⟨h1.configured, h1.timely, h1.carries, h1.typ⟩ (no jwt)

/-- C133. Every report of a wrong nonce names the expected one. -/
theorem C133_told (n : Str) (jwt : ProofJwt)
    (h : NonceCompared x now m r offer asm (expecting lifetime created client n) jwt) (hn : jwt.body.nonce ≠ n) :
    ∃ i, reportOf (·.information x)
        (evaluateCredentialRequest x now m r offer asm doc (expecting lifetime created client n)) = some i ∧
      Details i [(str! "expected_nonce", .str n), (str! "actual_nonce", .str jwt.body.nonce)] := by
  obtain ⟨i, h1, -, h2⟩ := C62_nonce x now m r offer asm doc (expecting lifetime created client n) jwt h.configured
    h.timely h.carries h.typ fun he => hn (Option.some.inj he).symm
  exact ⟨i, h1, h2⟩

/-- C133. The nonce that was told is taken: with it in the proof, the request is not rejected for the nonce. -/
theorem C133_used (n : Str) (hn : ∀ jwt, Carries x r jwt → jwt.body.nonce = n) (e : Option Str) (a : Str) :
    evaluateCredentialRequest x now m r offer asm doc (expecting lifetime created client n) ≠
      .err (.jwtError (.nonceMismatch e a)) := by
  intro he
  have key : ∀ {h : ProofJwtHeader} {e' : JwtError}, KeyRejected x h doc e' → e' ≠ .nonceMismatch e a := by
    rintro h e' hk rfl
    cases hk with
    | jwkUnusable k jwk _ h1 h2 h3 => cases h3
    | kidUnusable kid url d vm jwk _ h1 h2 h3 h4 h5 h6 => cases h6
  generalize ho : CredentialIssuerError.jwtError (.nonceMismatch e a) = e' at he
  cases (C60_evaluate_errors ..).1 he with
  | nonce jwt h1 h2 h3 h4 h5 => exact h5 (congrArg some (hn jwt h3).symm)
  | key o jwt e h1 h2 => cases ho; exact key h2 rfl
  | _ => cases ho

/-- C133. The violation: the reports for two wrong nonces are the same exactly if the request is rejected before the
nonces are compared. -/
theorem C133_iff_partial (n n' : Str) (hn : n ≠ n') (h : Lacks x r n) (h' : Lacks x r n') :
    reportOf (·.information x) (evaluateCredentialRequest x now m r offer asm doc (expecting lifetime created client n)) =
      reportOf (·.information x) (evaluateCredentialRequest x now m r offer asm doc (expecting lifetime created client n')) ↔
    ¬ ∃ jwt, NonceCompared x now m r offer asm (expecting lifetime created client n) jwt := by
  rcases wrong_nonce x now m r offer asm doc lifetime created client n n' h h' with ⟨jwt, hc, he⟩ | ⟨hc, he⟩
  · refine iff_of_false ?_ fun hx => hx ⟨jwt, hc⟩
    rw [he n (by simp), he n' (by simp)]
    intro hi
    have := C61_issuer x (T := fun _ => False) (by intro _ _ h; cases h)
      (.jwtError (.nonceMismatch (some n) jwt.body.nonce)) (.jwtError (.nonceMismatch (some n') jwt.body.nonce))
      trivial trivial (by simp) (Option.some.inj hi)
    cases this
    exact hn rfl
  · exact iff_of_true (by rw [he]) hc

/-- C133, without the additional information: code, name and description are the same for all wrong nonces. -/
theorem C133_summary_partial (n n' : Str) (h : Lacks x r n) (h' : Lacks x r n') :
    (reportOf (·.information x)
        (evaluateCredentialRequest x now m r offer asm doc (expecting lifetime created client n))).map summary =
      (reportOf (·.information x)
        (evaluateCredentialRequest x now m r offer asm doc (expecting lifetime created client n'))).map summary := by
  rcases wrong_nonce x now m r offer asm doc lifetime created client n n' h h' with ⟨jwt, hc, he⟩ | ⟨hc, he⟩
  · rw [he n (by simp), he n' (by simp)]; rfl
  · rw [he]

end

namespace Ex

/-- The proof of this request has the nonce `nonce`. -/
theorem lacks_request (n : Str) (h : str! "nonce" ≠ n) : Lacks ext request n := by
  rintro jwt ⟨p, hp, hj⟩
  cases hp
  rw [fromStr_request] at hj
  cases hj
  exact h

theorem compared_request (n : Str) : ∃ jwt, jwt.body.nonce = str! "nonce" ∧
    NonceCompared ext 1000 metadata request (some pinOffer) none (expecting 100 0 none n) jwt :=
  ⟨_, rfl, ⟨distinct_metadata, by simp, rfl⟩,
    timely_expecting (n := str! "other") (by rintro c ⟨⟩; exact ⟨by decide +kernel, by decide +kernel⟩) n,
    ⟨_, rfl, fromStr_request⟩, bound.typ⟩

end Ex

/-- C133 is violated. -/
theorem C133_refuted : ¬ C133_statement := fun h =>
  (C133_iff_partial Ex.ext 1000 Ex.metadata Ex.request (some Ex.pinOffer) none none 100 0 none (str! "a") (str! "b")
    (by decide) (Ex.lacks_request _ (by decide)) (Ex.lacks_request _ (by decide))).1
    (h _ _ _ _ _ _ _ _ _ _ _ _ (Ex.lacks_request _ (by decide)) (Ex.lacks_request _ (by decide)))
    ((Ex.compared_request _).imp fun _ h => h.2)

/-- C133_told: whatever nonce is expected instead of that of the proof. -/
example (n : Str) (hn : str! "nonce" ≠ n) : ∃ i, reportOf (·.information Ex.ext)
      (evaluateCredentialRequest Ex.ext 1000 Ex.metadata Ex.request (some Ex.pinOffer) none none
        (expecting 100 0 none n)) = some i ∧
    Details i [(str! "expected_nonce", .str n), (str! "actual_nonce", .str (str! "nonce"))] := by
  obtain ⟨jwt, h1, h2⟩ := Ex.compared_request n
  have := C133_told Ex.ext 1000 Ex.metadata Ex.request (some Ex.pinOffer) none none 100 0 none n jwt h2 (h1 ▸ hn)
  rwa [h1] at this

/-- C133_used: the request with the expected nonce. -/
example (e : Option Str) (a : Str) : evaluateCredentialRequest Ex.ext 1000 Ex.metadata Ex.request (some Ex.pinOffer) none
    (some Ex.didDoc) (expecting 100 0 none (str! "nonce")) ≠ .err (.jwtError (.nonceMismatch e a)) :=
  C133_used _ _ _ _ _ _ _ _ _ _ _ (by
    rintro jwt ⟨p, hp, hj⟩
    cases hp
    rw [Ex.fromStr_request] at hj
    cases hj
    rfl) e a

/-- C133_iff_partial: without an offer the nonces are not compared. -/
example (n n' : Str) (hn : n ≠ n') (h : str! "nonce" ≠ n) (h' : str! "nonce" ≠ n') :
    reportOf (·.information Ex.ext) (evaluateCredentialRequest Ex.ext 1000 Ex.metadata Ex.request none none none
      (expecting 100 0 none n)) =
    reportOf (·.information Ex.ext) (evaluateCredentialRequest Ex.ext 1000 Ex.metadata Ex.request none none none
      (expecting 100 0 none n')) :=
  (C133_iff_partial _ _ _ _ _ _ _ _ _ _ n n' hn (Ex.lacks_request n h) (Ex.lacks_request n' h')).2
    fun ⟨_, hj⟩ => hj.configured.2.1 rfl

/-- C133_summary_partial: a wrong nonce. -/
example : (reportOf (·.information Ex.ext) (evaluateCredentialRequest Ex.ext 1000 Ex.metadata Ex.request
    (some Ex.pinOffer) none none (expecting 100 0 none (str! "other")))).map summary =
    some (101, str! "JwtError", str! "Expected nonce was not found in the JWT") := by decide +kernel

end Oid4vci
