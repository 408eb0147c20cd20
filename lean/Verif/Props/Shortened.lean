import Verif.Props.Cut
import Verif.Props.Evaluate

/-!
C152. A proof JWT that is cut off or that has something appended to it keeps its header and its claims, as long as it can
be read at all; only the signature may be lost, cut off or lengthened.
-/

namespace Oid4vci

open Spec Reading CredentialIssuer

/-- What is appended becomes part of the last segment, up to the next dot. -/
theorem splitOn_run {c : Char} {t h : Str} {tl : List Str} (ht : splitOn c t = h :: tl) :
    ∀ s, ∃ l z, splitOn c s = l ++ [z] ∧ splitOn c (s ++ t) = l ++ (z ++ h) :: tl
  | [] => ⟨[], [], rfl, ht⟩
  | x :: s => by
    obtain ⟨l, z, h1, h2⟩ := splitOn_run ht s
    by_cases hx : x = c
    · exact ⟨[] :: l, z, by simp [splitOn, hx, h1], by simp [splitOn, hx, h2]⟩
    · cases l with
      | nil => exact ⟨[], x :: z, by simp [splitOn, hx, h1], by simp [splitOn, hx, h2]⟩
      | cons a l => exact ⟨(x :: a) :: l, z, by simp [splitOn, hx, h1], by simp [splitOn, hx, h2]⟩

theorem segments_run {s t hs bs : Str} {rest : List Str} (h : splitOn '.' s = hs :: bs :: rest) :
    ∃ bs' rest', splitOn '.' (s ++ t) = hs :: bs' :: rest' ∧ (∃ u, bs' = bs ++ u) ∧
      ∀ g, rest.head? = some g → bs' = bs ∧ ∃ u, rest'.head? = some (g ++ u) := by
  cases ht : splitOn '.' t with
  | nil => exact absurd ht (splitOn_ne_nil _ _)
  | cons h' tl =>
    obtain ⟨l, z, h1, h2⟩ := splitOn_run ht s
    rw [h] at h1
    match l, h1, h2 with
    | [], h1, _ => simp at h1
    | [a], h1, h2 =>
      simp only [List.cons_append, List.nil_append, List.cons.injEq] at h1 h2
      obtain ⟨rfl, rfl, rfl⟩ := h1
      exact ⟨_, _, h2, ⟨h', rfl⟩, fun g hg => by simp at hg⟩
    | [a, b], h1, h2 =>
      simp only [List.cons_append, List.nil_append, List.cons.injEq] at h1 h2
      obtain ⟨rfl, rfl, rfl⟩ := h1
      exact ⟨_, _, h2, ⟨[], by simp⟩, fun g hg => by cases hg; exact ⟨rfl, h', rfl⟩⟩
    | a :: b :: g :: l, h1, h2 =>
      simp only [List.cons_append, List.cons.injEq] at h1 h2
      obtain ⟨rfl, rfl, rfl⟩ := h1
      exact ⟨_, _, h2, ⟨[], by simp⟩, fun g hg => by cases hg; exact ⟨rfl, [], by simp⟩⟩

theorem decode_run (a : Base64.Alphabet) : ∀ (s u : Str) (b b' : Bytes), Base64.decode a s = some b →
    Base64.decode a (s ++ u) = some b' → ∃ r, b' = b ++ r
  | c0 :: c1 :: c2 :: c3 :: s, u, b, b', h, h' => by
    simp only [List.cons_append, Base64.decode, Option.bind_eq_bind, Option.bind_eq_some_iff, Option.some.injEq] at h h'
    obtain ⟨n0, e0, n1, e1, n2, e2, n3, e3, r, er, rfl⟩ := h
    obtain ⟨m0, f0, m1, f1, m2, f2, m3, f3, r', er', rfl⟩ := h'
    rw [e0] at f0; cases f0
    rw [e1] at f1; cases f1
    rw [e2] at f2; cases f2
    rw [e3] at f3; cases f3
    obtain ⟨q, rfl⟩ := decode_run a s u r r' er er'
    exact ⟨q, rfl⟩
  | [c0, c1, c2], u, b, b', h, h' => by
    simp only [Base64.decode, Option.bind_eq_bind, Option.bind_eq_some_iff, Option.ite_none_right_eq_some,
      Option.some.injEq] at h
    obtain ⟨n0, e0, n1, e1, n2, e2, hz, rfl⟩ := h
    cases u with
    | nil => 
      simp only [List.append_nil, Base64.decode, Option.bind_eq_bind, e0, e1, e2, Option.bind_some, hz, if_true,
        Option.some.injEq] at h'
      exact ⟨[], by simp [← h']⟩
    | cons c3 u =>
      simp only [List.cons_append, List.nil_append, Base64.decode, Option.bind_eq_bind, e0, e1, e2, Option.bind_some,
        Option.bind_eq_some_iff, Option.some.injEq] at h'
      obtain ⟨n3, e3, r, er, rfl⟩ := h'
      exact ⟨_ :: r, rfl⟩
  | [c0, c1], u, b, b', h, h' => by
    simp only [Base64.decode, Option.bind_eq_bind, Option.bind_eq_some_iff, Option.ite_none_right_eq_some,
      Option.some.injEq] at h
    obtain ⟨n0, e0, n1, e1, hz, rfl⟩ := h
    match u, h' with
    | [], h' =>
      simp only [List.append_nil, Base64.decode, Option.bind_eq_bind, e0, e1, Option.bind_some, hz, if_true,
        Option.some.injEq] at h'
      exact ⟨[], by simp [← h']⟩
    | [c2], h' =>
      simp only [List.cons_append, List.nil_append, Base64.decode, Option.bind_eq_bind, e0, e1, Option.bind_some,
        Option.bind_eq_some_iff, Option.ite_none_right_eq_some, Option.some.injEq] at h'
      obtain ⟨n2, e2, -, rfl⟩ := h'
      exact ⟨[_], rfl⟩
    | c2 :: c3 :: u, h' =>
      simp only [List.cons_append, List.nil_append, Base64.decode, Option.bind_eq_bind, e0, e1, Option.bind_some,
        Option.bind_eq_some_iff, Option.some.injEq] at h'
      obtain ⟨n2, e2, n3, e3, r, er, rfl⟩ := h'
      exact ⟨_ :: _ :: r, rfl⟩
  | [_], u, b, b', h, _ => by simp [Base64.decode] at h
  | [], u, b, b', h, _ => by
    simp only [Base64.decode, Option.some.injEq] at h
    exact ⟨b', by simp [← h]⟩

theorem utf8_whitespace : ∀ {u : Bytes}, (∀ d ∈ u, d ∈ whitespace) → utf8Encode (Json.octets u) = u
  | [], _ => rfl
  | d :: u, h => by
    have hd : d ∈ whitespace := h d (by simp)
    have ih := utf8_whitespace (u := u) fun e he => h e (by simp [he])
    have h1 : ∀ e ∈ whitespace, utf8Encode [Char.ofNat e.toNat] = [e] := by decide +kernel
    rw [show Json.octets (d :: u) = [Char.ofNat d.toNat] ++ Json.octets u from rfl, utf8Encode_append, h1 d hd, ih]
    rfl

/-- White space after the body means nothing. -/
theorem looseText_space {known : List Str} {v : Json} {b u : Bytes} (h : LooseText known v b)
    (hu : ∀ d ∈ u, d ∈ whitespace) : LooseText known v (b ++ u) := by
  cases h with
  | object kvs w t w' _ hw ht hw' hb =>
    refine .object kvs w t (w' ++ Json.octets u) _ hw ht (Ws.append hw' (octets_whitespace hu)) ?_
    rw [Json.octets_iff] at hb ⊢
    rw [Json.octets_append, ← hb]
    simp
  | other _ s _ hn hs hd hb =>
    obtain ⟨w, t, w', hw, ht, hw', rfl⟩ := hs
    refine .other v (w ++ t ++ w' ++ Json.octets u) _ hn
      ⟨w, t, w' ++ Json.octets u, hw, ht, Ws.append hw' (octets_whitespace hu), by simp⟩ hd ?_
    rw [← C66_encode] at hb ⊢
    rw [utf8Encode_append, utf8_whitespace hu, hb]

theorem fromSlice_iff {x : Ext} {b : Bytes} {body : ProofJwtBody} :
    ProofJwtBody.fromSlice x b = some body ↔ ∃ v, LooseText claimNames v b ∧ BodyDoc x v body := by
  unfold ProofJwtBody.fromSlice
  simp only [Option.bind_eq_some_iff, C67_body, Json.looseSlice_iff]
  rfl

theorem fromSlice_run {x : Ext} {b u : Bytes} {body body' : ProofJwtBody}
    (h : ProofJwtBody.fromSlice x b = some body) (h' : ProofJwtBody.fromSlice x (b ++ u) = some body') :
    body' = body := by
  obtain ⟨v, h1, h2⟩ := fromSlice_iff.1 h
  obtain ⟨v', h3, h4⟩ := fromSlice_iff.1 h'
  have hu := (C140_body_whole x b u ⟨body, v, h1, h2⟩).1 ⟨body', v', h3, h4⟩
  have := fromSlice_iff.2 ⟨v, looseText_space h1 hu, h2⟩
  rw [h'] at this
  cases this
  rfl

/-- C152. A proof JWT and anything after it: if both are read, header and claims are the same, and the signature, if there
is one, is the beginning of that of the longer one. -/
theorem C152_kept (x : Ext) {s t : Str} {a b : ProofJwt} (ha : ProofJwt.fromStr x s = .ok a)
    (hb : ProofJwt.fromStr x (s ++ t) = .ok b) :
    b.header = a.header ∧ b.body = a.body ∧ ∀ g, a.signature = some g → ∃ u, b.signature = some (g ++ u) := by
  obtain ⟨hs, bs, rest, hh, hbb, e1, e2, e3, e4, e5, e6⟩ := ProofJwt.fromStr_eq_ok.1 ha
  obtain ⟨hs', bs', rest', hh', hbb', f1, f2, f3, f4, f5, f6⟩ := ProofJwt.fromStr_eq_ok.1 hb
  obtain ⟨bs'', rest'', g1, ⟨u, rfl⟩, g3⟩ := segments_run (t := t) e1
  rw [g1] at f1
  simp only [List.cons.injEq] at f1
  obtain ⟨rfl, rfl, rfl⟩ := f1
  rw [e2] at f2
  cases f2
  rw [e4] at f4
  obtain ⟨r, rfl⟩ := decode_run _ _ _ _ _ e3 f3
  refine ⟨(Option.some.inj f4).symm, fromSlice_run e5 f5, fun g hg => ?_⟩
  rw [e6] at hg
  obtain ⟨-, u', hu⟩ := g3 g hg
  exact ⟨u', f6.trans hu⟩


section
variable (x : Ext) (now : Time) (m : CredentialIssuerMetadata) (format : CredentialFormatProfile) (type type' : Str)
  (offer : Option CredentialOffer) (asm : Option AuthorizationServerMetadata) (doc : Option x.Doc)
  (options : Option EvaluateCredentialRequestOptions)

/-- The reply to the one is that to the other, except for message and signature. -/
def Spec.SameHolder (resp resp' : CredentialIssuerEvaluateRequestResponse) : Prop :=
  resp'.subjectId = resp.subjectId ∧ resp'.credential = resp.credential ∧
    ∃ p p', resp.proofOfPossession = some p ∧ resp'.proofOfPossession = some p' ∧
      p'.algorithm = p.algorithm ∧ p'.publicKey = p.publicKey

theorem same_grant {s s' : Str} {a b : ProofJwt} (ha : ProofJwt.fromStr x s = .ok a) (hb : ProofJwt.fromStr x s' = .ok b)
    (hh : b.header = a.header) (hc : b.body = a.body) (hs : a.signature ≠ none → b.signature ≠ none)
    {resp : CredentialIssuerEvaluateRequestResponse}
    (h : evaluateCredentialRequest x now m ⟨format, some ⟨type, s⟩⟩ offer asm doc options = .ok resp) :
    ∃ resp', evaluateCredentialRequest x now m ⟨format, some ⟨type', s'⟩⟩ offer asm doc options = .ok resp' ∧
      SameHolder resp resp' := by
  obtain ⟨hm, rfl, o, jwt, did, key, sig, msg, rfl, hB, hk, hsig, hmsg, rfl⟩ := (evaluate_ok_iff ..).1 h
  obtain ⟨⟨p, hp, hj⟩, h1, h2, h3, h4⟩ := hB
  cases hp
  rw [ha] at hj
  cases hj
  have hsig' := (extractSignature_ok x a).1 ⟨_, hsig⟩
  obtain ⟨sig', hs'⟩ : ∃ sig', b.extractSignature x = .ok sig' := (extractSignature_ok x b).2 <| by
    rw [hh, hc]
    exact hsig'.imp_left hs
  obtain ⟨msg', hm'⟩ := signable_ok x b
  refine ⟨_, (evaluate_ok_iff ..).2 ⟨hm, rfl, o, b, did, key, sig', msg', rfl, ⟨⟨_, rfl, hb⟩, ?_, ?_, ?_, ?_⟩, ?_, hs', hm',
    rfl⟩, rfl, rfl, _, _, rfl, rfl, ?_, rfl⟩
  · rw [hh]; exact h1
  · rw [hc]; exact h2
  · rw [hc]; exact h3
  · rw [hc]; exact h4
  · rw [hh]; exact hk
  · exact congrArg ProofJwtHeader.alg hh

/-- C152. If a request is accepted, so is the one with anything appended to its proof that can still be read, for the same
subject, key and credential. -/
theorem C152_longer {s t : Str} {b : ProofJwt} (hb : ProofJwt.fromStr x (s ++ t) = .ok b)
    {resp : CredentialIssuerEvaluateRequestResponse}
    (h : evaluateCredentialRequest x now m ⟨format, some ⟨type, s⟩⟩ offer asm doc options = .ok resp) :
    ∃ resp', evaluateCredentialRequest x now m ⟨format, some ⟨type', s ++ t⟩⟩ offer asm doc options = .ok resp' ∧
      SameHolder resp resp' := by
  obtain ⟨-, -, o, a, -, -, -, -, -, ⟨⟨p, hp, ha⟩, -⟩, -⟩ := (evaluate_ok_iff ..).1 h
  cases hp
  obtain ⟨h1, h2, h3⟩ := C152_kept x ha hb
  refine same_grant x now m format type type' offer asm doc options ha hb h1 h2 (fun hn => ?_) h
  obtain ⟨g, hg⟩ := Option.ne_none_iff_exists'.1 hn
  obtain ⟨u, hu⟩ := h3 g hg
  simp [hu]

/-- C152. If a request is accepted, so is the one with its proof cut off within the signature. -/
theorem C152_shorter {s t : Str} {a : ProofJwt} (ha : ProofJwt.fromStr x s = .ok a) (hs : a.signature ≠ none)
    {resp : CredentialIssuerEvaluateRequestResponse}
    (h : evaluateCredentialRequest x now m ⟨format, some ⟨type, s ++ t⟩⟩ offer asm doc options = .ok resp) :
    ∃ resp', evaluateCredentialRequest x now m ⟨format, some ⟨type', s⟩⟩ offer asm doc options = .ok resp' ∧
      SameHolder resp resp' := by
  obtain ⟨-, -, o, b, -, -, -, -, -, ⟨⟨p, hp, hb⟩, -⟩, -⟩ := (evaluate_ok_iff ..).1 h
  cases hp
  obtain ⟨h1, h2, -⟩ := C152_kept x ha hb
  exact same_grant x now m format type type' offer asm doc options hb ha h1.symm h2.symm (fun _ => hs) h

end

/-- C152. The subject that is announced is the same, too. -/
theorem C152_pre (x : Ext) (format : CredentialFormatProfile) (type : Str) {s t : Str} {a b : ProofJwt}
    (ha : ProofJwt.fromStr x s = .ok a) (hb : ProofJwt.fromStr x (s ++ t) = .ok b) :
    preEvaluateCredentialRequest x ⟨format, some ⟨type, s ++ t⟩⟩ =
      preEvaluateCredentialRequest x ⟨format, some ⟨type, s⟩⟩ := by
  obtain ⟨h1, h2, -⟩ := C152_kept x ha hb
  unfold preEvaluateCredentialRequest CredentialRequest.validate CredentialRequestProof.validate
  obtain ⟨ah, ab, as⟩ := a
  obtain ⟨bh, bb, bs⟩ := b
  cases h1
  simp only [ha, hb]
  rfl

namespace Ex

/-- C152: the request of the example, and that with `x` behind the signature of its proof. -/
example : ∃ resp resp', evaluateCredentialRequest ext 1000 metadata request (some pinOffer) none (some didDoc) options =
      .ok resp ∧
    evaluateCredentialRequest ext 1000 metadata
      ⟨mdoc, some ⟨str! "jwt", compact ext header plainBody (some (str! "c2ln")) ++ str! "x"⟩⟩ (some pinOffer) none
      (some didDoc) options = .ok resp' ∧ SameHolder resp resp' := by
  obtain ⟨resp, h⟩ := evaluates
  have hb : ProofJwt.fromStr ext (compact ext header plainBody (some (str! "c2ln")) ++ str! "x") =
      .ok ⟨header, plainBody, some (str! "c2lnx")⟩ := by
    have := fromStr_compact ext header plainBody (some (str! "c2lnx")) timesOk_plainBody (by simp [NoDot])
    rw [← this]
    simp [compact, dotted]
  obtain ⟨resp', h1, h2⟩ := C152_longer ext 1000 metadata mdoc (str! "jwt") (str! "jwt") (some pinOffer) none (some didDoc)
    options hb h
  exact ⟨resp, resp', h, h1, h2⟩

end Ex

end Oid4vci
