import Verif.Spec.Evolve
import Verif.Props.Offer
import Verif.Props.Evaluate

/-! C119: the issuer's metadata changes while offers are outstanding. -/

namespace Oid4vci

open Spec CredentialIssuer

theorem standsFor_extends {m m' : CredentialIssuerMetadata} (hm : DistinctIds m.credentialsSupported)
    (h : Extends m m') {c : CredentialOrId} {f : CredentialFormatProfile} (hc : StandsFor m c f) : StandsFor m' c f := by
  cases c with
  | credential c => exact hc
  | credentialId id =>
    obtain ⟨e, he, hid, hf⟩ := ((C10_resolve_id m hm id).1 f).1 ((resolve_id_ok_iff m id f).2 hc)
    exact (resolve_id_ok_iff m' id f).1 (((C10_resolve_id m' h.2.2 id).1 f).2 ⟨e, h.2.1 e he, hid, hf⟩)

/-- C119. What an outstanding offer stands for is not changed by further supported credentials, by another order of
them or by changes of other members. -/
theorem C119_resolve (m m' : CredentialIssuerMetadata) (hm : DistinctIds m.credentialsSupported) (h : Extends m m')
    (cs : CredentialOrIds) (fs : List CredentialFormatProfile) (hr : CredentialOrIds.resolveAll m cs = .ok fs) :
    CredentialOrIds.resolveAll m' cs = .ok fs :=
  ((C11_resolve_all m' cs).1 fs).2
    ((((C11_resolve_all m cs).1 fs).1 hr).imp fun _ _ hc => standsFor_extends hm h hc)

/-- C119. Creating an offer again after the metadata was changed, with the same issuer and valid ids, gives the same
offer and URL if and only if every id it mentions is still there. -/
theorem C119_kept (m m' : CredentialIssuerMetadata) (hm' : DistinctIds m'.credentialsSupported)
    (hi : m'.credentialIssuer = m.credentialIssuer) (cs : CredentialOrIds) (endpoint : Option Str)
    (a : Option AuthorizedCodeFlow) (p : Option PreAuthorizedCodeFlow) (r : CredentialOffer × Str)
    (h : createOffer m cs endpoint a p = .ok r) :
    createOffer m' cs endpoint a p = .ok r ↔ ∀ id, Mentions cs id → KnownId m' id := by
  obtain ⟨offer, url⟩ := r
  obtain ⟨hd, ha, hk⟩ := (C12_create_offer m cs endpoint a p).1.1 ⟨_, h⟩
  obtain ⟨h1, h2, h3, h4⟩ := (C12_create_offer m cs endpoint a p).2.1 _ _ h
  constructor
  · intro h' id hid
    exact ((C12_create_offer m' cs endpoint a p).1.1 ⟨_, h'⟩).2.2 _ hid
  · intro hk'
    obtain ⟨⟨offer', url'⟩, h'⟩ := (C12_create_offer m' cs endpoint a p).1.2 ⟨hm', ha, fun c hc => by
      cases c with
      | credential c => trivial
      | credentialId id => exact hk' id hc⟩
    obtain ⟨e1, e2, e3, e4⟩ := (C12_create_offer m' cs endpoint a p).2.1 _ _ h'
    have he : offer' = offer := by
      obtain ⟨_, _, ⟨_, _⟩⟩ := offer
      obtain ⟨_, _, ⟨_, _⟩⟩ := offer'
      simp only at h1 h2 h3 h4 e1 e2 e3 e4
      subst h2 h3 h4 e2 e3 e4
      rw [e1, h1, hi]
    rw [h', createOffer_url _ _ _ _ _ _ _ h', createOffer_url _ _ _ _ _ _ _ h, he]

/-- C119. In particular, further supported credentials leave offers as they are. -/
theorem C119_offer (m m' : CredentialIssuerMetadata) (h : Extends m m') (cs : CredentialOrIds) (endpoint : Option Str)
    (a : Option AuthorizedCodeFlow) (p : Option PreAuthorizedCodeFlow) (r : CredentialOffer × Str)
    (hr : createOffer m cs endpoint a p = .ok r) : createOffer m' cs endpoint a p = .ok r := by
  refine (C119_kept m m' h.2.2 h.1 cs endpoint a p r hr).2 fun id hid => ?_
  obtain ⟨e, he, hi⟩ := ((C12_create_offer m cs endpoint a p).1.1 ⟨_, hr⟩).2.2 _ hid
  exact ⟨e, h.2.1 e he, hi⟩

/-- C119. Evaluation of requests under an outstanding offer does not depend on the supported credentials at all: every
request has the same outcome, whether it is accepted or not. -/
theorem C119_evaluate (x : Ext) (now : Time) (m m' : CredentialIssuerMetadata)
    (hm : DistinctIds m.credentialsSupported) (hm' : DistinctIds m'.credentialsSupported)
    (hi : m'.credentialIssuer = m.credentialIssuer) (r : CredentialRequest) (offer : Option CredentialOffer)
    (asm : Option AuthorizationServerMetadata) (doc : Option x.Doc) (o : Option EvaluateCredentialRequestOptions) :
    evaluateCredentialRequest x now m' r offer asm doc o = evaluateCredentialRequest x now m r offer asm doc o := by
  unfold evaluateCredentialRequest
  rw [(C09_validate_iff m).1.2 hm, (C09_validate_iff m').1.2 hm', hi]

/-- A credential was added in front, another one reordered, and the endpoint moved. -/
def Ex.grown : CredentialIssuerMetadata :=
  { Ex.metadata with
    credentialEndpoint := str! "https://issuer/new"
    credentialsSupported := Ex.entry (some (str! "c")) Ex.mdoc :: Ex.metadata.credentialsSupported.reverse }

example : Extends Ex.metadata Ex.grown ∧ ¬ KnownId Ex.metadata (str! "c") ∧
    CredentialOrIds.resolveAll Ex.grown [.credentialId (str! "b"), .credentialId (str! "a")] = .ok [Ex.mdoc, Ex.ldp] := by
  have hd : DistinctIds Ex.grown.credentialsSupported := by rw [← metadata_validate_iff]; decide +kernel
  have h : Extends Ex.metadata Ex.grown := ⟨rfl, fun c hc => by simp [Ex.grown, hc], hd⟩
  refine ⟨h, ?_, C119_resolve Ex.metadata Ex.grown (by rw [← metadata_validate_iff]; decide +kernel) h _ _
    (by decide +kernel)⟩
  rw [knownId_iff]; rintro ⟨f, h⟩
  rw [show (CredentialOrId.credentialId (str! "c")).resolve Ex.metadata
    = .err (.credentialIdNotInIssuerMetadata (str! "c")) by decide +kernel] at h
  cases h

end Oid4vci
