import Verif.Lemmas.Stable
import Verif.Spec.Wallet
import Verif.Props.Evaluate
import Verif.Props.Instant
import Verif.Props.JwtText
import Verif.Props.Options
import Verif.Props.Wire

/-!
C118: whatever was read can be written, and what was written is read as the same value; only double-precision numbers
in JSON-LD contexts and additional metadata may change, within C100.
-/

namespace Oid4vci

open Spec hiding value
open Serde

/-- What is seen in a text is a document. -/
theorem readsTo_iff {α : Type} {σ : Shape} {de : Json → Option α} {s : Str} {a : α} :
    ReadsTo (fun s => (Json.see σ s).bind de) s a ↔ ∃ v, Json.see σ s = some v ∧ de v = some a := by
  simp [ReadsTo, Option.bind_eq_some_iff]

/-- C118. An offer that was read is written as a text that is read again: as the same offer if and only if the
double-precision numbers in its contexts survive (C100), and as the same offer up to these numbers in any case. -/
theorem C118_offer (s : Str) (o : CredentialOffer) (h : ReadsTo CredentialOffer.fromJson s o) :
    CredentialOffer.de o.ser = some o ∧
    (ReadsTo CredentialOffer.fromJson o.ser.print o ↔ PlainNumbers o.ser) ∧
    ∃ o', ReadsTo CredentialOffer.fromJson o.ser.print o' ∧ NearOffer o o' := by
  obtain ⟨v, hp, hd⟩ := readsTo_iff.1 h
  obtain ⟨h1, h2⟩ := OfferDoc.sound (n := 122) ((C63_offer v o).1 hd) (see_sound_rust hp)
  exact ⟨CredentialOffer.de_ser o h1, by
    unfold ReadsTo; rw [o.fromJson_ser (rust_offer o h1), o.text_iff h1]; exact ⟨fun h => h.2, fun h => ⟨h2, h⟩⟩, by
    unfold ReadsTo; rw [o.fromJson_ser (rust_offer o h1)]; exact o.text_near h1 h2⟩

/-- C118. The same of credential requests. -/
theorem C118_request (s : Str) (r : CredentialRequest) (h : ReadsTo CredentialRequest.fromJson s r) :
    CredentialRequest.de r.ser = some r ∧
    (ReadsTo CredentialRequest.fromJson r.ser.print r ↔ PlainNumbers r.ser) ∧
    ∃ r', ReadsTo CredentialRequest.fromJson r.ser.print r' ∧ NearRequest r r' := by
  obtain ⟨v, hp, hd⟩ := readsTo_iff.1 h
  obtain ⟨h1, h2⟩ := RequestDoc.sound (n := 124) ((C63_request v r).1 hd) (see_sound_rust hp)
  exact ⟨CredentialRequest.de_ser r h1, by
    unfold ReadsTo; rw [r.fromJson_ser (rust_request r h1), r.text_iff h1]; exact ⟨fun h => h.2, fun h => ⟨h2, h⟩⟩, by
    unfold ReadsTo; rw [r.fromJson_ser (rust_request r h1)]; exact r.text_near h1 h2⟩

/-- C118. The same of credential responses. -/
theorem C118_response (s : Str) (r : CredentialSuccessResponse) (h : ReadsTo CredentialSuccessResponse.fromJson s r) :
    CredentialSuccessResponse.de r.ser = some r ∧
    (ReadsTo CredentialSuccessResponse.fromJson r.ser.print r ↔ PlainNumbers r.ser) ∧
    ∃ r', ReadsTo CredentialSuccessResponse.fromJson r.ser.print r' ∧ NearResponse r r' := by
  obtain ⟨v, hp, hd⟩ := readsTo_iff.1 h
  obtain ⟨h1, h2⟩ := ResponseDoc.sound (n := 122) ((C63_response v r).1 hd) (see_sound_rust hp)
  exact ⟨CredentialSuccessResponse.de_ser r h1, by
    unfold ReadsTo; rw [r.fromJson_ser (rust_successResponse r h1), r.text_iff h1]; exact ⟨fun h => h.2, fun h => ⟨h2, h⟩⟩, by
    unfold ReadsTo; rw [r.fromJson_ser (rust_successResponse r h1)]; exact r.text_near h1 h2⟩

/-- C118. The same of issuer metadata: what C48 says to be lost cannot occur in metadata that was read. -/
theorem C118_metadata (s : Str) (m : CredentialIssuerMetadata) (h : ReadsTo CredentialIssuerMetadata.fromJson s m) :
    CredentialIssuerMetadata.de m.ser = some m ∧
    (ReadsTo CredentialIssuerMetadata.fromJson m.ser.print m ↔ PlainNumbers m.ser) ∧
    ∃ m', ReadsTo CredentialIssuerMetadata.fromJson m.ser.print m' ∧ NearMetadata m m' := by
  obtain ⟨v, hp, hd⟩ := readsTo_iff.1 h
  obtain ⟨h1, h2, h3, h4⟩ := MetadataDoc.sound (n := 122) ((C63_metadata v m).1 hd) (see_sound_rust hp)
  have hr : RustMetadata m := h1
  obtain ⟨m', e1, e2, -⟩ := C48_round_trip_partial m hr h3 h4
  refine ⟨?_, (C48_same_iff_partial m hr).trans ⟨fun h => h.2.2.2, fun h => ⟨h2, h3, h4, h⟩⟩, m', e1, e2⟩
  rw [CredentialIssuerMetadata.de_ser m h1.1 fun a hm =>
    ⟨(hr.apart h3 a hm).1, fun p hp => ⟨((hr.apart h3 a hm).2 p hp).1.1, ((hr.apart h3 a hm).2 p hp).2⟩⟩]
  obtain ⟨_, _, _, _, _, a⟩ := m
  cases a with
  | none => exact absurd rfl h2
  | some a => rfl

/-- C118. A proof JWT that was read can be encoded anew, from its parts: in compact form, and as a JSON document of
its own. It is then read as the same JWT, including the instants. -/
theorem C118_jwt (x : Ext) (s : Str) (j : ProofJwt) (h : ProofJwt.fromStr (withChrono x) s = .ok j) :
    ProofJwt.fromStr (withChrono x) (compact (withChrono x) j.header j.body j.signature) = .ok j ∧
    ReadsTo (ProofJwt.fromJson (withChrono x)) (j.ser (withChrono x)).print j := by
  obtain ⟨hs, bs, rest, hnd, -, -, ⟨_, _, _, _, hd⟩, hsig⟩ := (C67_jwt _ _ _).1 h
  obtain ⟨_, _, _, _, _, _, _, -, -, -, -, ⟨_, -, _, -, t1⟩, -, t2, t3⟩ := hd
  have hv : ∀ {s t}, (withChrono x).parseTime s = some t → Time.Valid t := by
    intro s t ht
    obtain ⟨_, _, _, _, _, _, _, _, _, _, _, _, _, _, _, _, _, _, _, _, _, _, _, _, hv⟩ := (C74_exact s t).1 ht
    exact hv
  have ho : ∀ {o : Option Json} {m : Option Time}, Optional (IsInstant (withChrono x)) o m → ∀ t ∈ m, Time.Valid t := by
    intro o m ho t ht
    cases ht
    obtain ⟨_, -, _, -, ht⟩ := ho
    exact hv ht
  refine ⟨fromStr_compact _ j.header j.body j.signature ⟨C56_round_trip _ (hv t1),
    fun t ht => C56_round_trip t (ho t2 t ht), fun t ht => C56_round_trip t (ho t3 t ht)⟩ ?_,
    C69_jwt_text x j (hv t1) (ho t2) (ho t3)⟩
  intro g hg
  rw [hsig] at hg
  exact hnd g (by simp [List.mem_of_mem_head? hg])

namespace Ex
/-- An offer as an array, its credential as an array with the position of the format, a duplicate claim, unknown
members, a context whose members are not sorted and have a duplicate. -/
def looseOffer : Str := str! "[\"i\", [[2, [{\"b\": {\"y\": 1, \"x\": [2]}, \"a\": -1, \"b\": {\"z\": null, \"c\": 3, \"z\": 4}}], [\"t\"], {\"n\": {}, \"n\": [true, null, null]}, null]], {\"u\": 1e300}] "
/-- What it is read as. -/
def tidyOffer : CredentialOffer :=
  ⟨str! "i", [.credential (.ldpVc [.map [(str! "b", .obj [(str! "c", .num 3), (str! "z", .num 4)]), (str! "a", .num (-1))]]
    [str! "t"] (some [(str! "n", ⟨some true, none, none⟩)]) none)], ⟨none, none⟩⟩
/-- What it is written as. -/
def tidyText : Str := str! "{\"credential_issuer\":\"i\",\"credentials\":[{\"format\":\"ldp_vc\",\"@context\":[{\"b\":{\"c\":3,\"z\":4},\"a\":-1}],\"types\":[\"t\"],\"credentialSubject\":{\"n\":{\"mandatory\":true}}}],\"grants\":{}}"
end Ex

example : ReadsTo CredentialOffer.fromJson Ex.looseOffer Ex.tidyOffer ∧ Ex.tidyOffer.ser.print = Ex.tidyText ∧
    ReadsTo CredentialOffer.fromJson Ex.tidyText Ex.tidyOffer := by
  have h : ReadsTo CredentialOffer.fromJson Ex.looseOffer Ex.tidyOffer := by unfold ReadsTo; decide +kernel
  have e : Ex.tidyOffer.ser.print = Ex.tidyText := by decide +kernel
  refine ⟨h, e, ?_⟩
  rw [← e, (C118_offer _ _ h).2.1]
  simp [Ex.tidyOffer, CredentialOffer.ser, CredentialOrId.ser, CredentialFormatProfile.ser, LinkedDataContext.ser,
    CredentialSubject.ser, CredentialOfferGrants.ser, serVec, serMap, skipNone, PlainNumbers, PlainNumbersMembers,
    PlainNumbersList]

/-- A request with the proof first and the format by position, metadata with additional members around the named ones,
and a deferred response. -/
example : ReadsTo CredentialRequest.fromJson (str! "{\"proof\":{\"jwt\":\"a.b\"},\"doctype\":\"d\",\"format\":3}")
      ⟨.msoMdoc (str! "d") none none, some ⟨str! "JWT", str! "a.b"⟩⟩ ∧
    ReadsTo CredentialIssuerMetadata.fromJson
      (str! "{\"z\":{\"b\":1,\"a\":[]},\"credentials_supported\":[],\"credential_endpoint\":\"e\",\"credential_issuer\":\"i\",\"y\":0}")
      ⟨str! "i", none, str! "e", none, [], some [(str! "z", .obj [(str! "a", .arr []), (str! "b", .num 1)]), (str! "y", .num 0)]⟩ ∧
    ReadsTo CredentialSuccessResponse.fromJson (str! "[\"ldp_vc\",null,\"t\",null,7]") ⟨str! "ldp_vc", none, some (str! "t"), none, some 7⟩ := by
  unfold ReadsTo
  exact ⟨by decide +kernel, by decide +kernel, by decide +kernel⟩

/-- A JWT with a fourth segment, an unknown claim, and an instant with an offset. -/
example : ProofJwt.fromStr (withChrono Ex.ext) (str! "eyJ0eXAiOiJvcGVuaWQ0dmNpLXByb29mK2p3dCIsImtpZCI6ImRpZDphOmIjYyIsImFsZyI6IkVkRFNBIn0.eyJub25jZSI6Im4iLCJpYXQiOiIyMDE4LTA5LTE0VDIzOjE5OjEwKzAyOjAwIiwiYXVkIjoiaSIsIngiOltdfQ.c2ln.more") =
    .ok ⟨⟨str! "openid4vci-proof+jwt", .EdDSA, some (.keyId (str! "did:a:b#c"))⟩,
      ⟨none, str! "i", none, 1536959950000000000, str! "n", none, none⟩, some (str! "c2ln")⟩ := by decide +kernel

end Oid4vci
