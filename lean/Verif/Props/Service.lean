import Verif.Spec.Service
import Verif.Props.Careful
import Verif.Props.Token
import Verif.Props.Offer
import Verif.Props.Evolve

/-! C125: a service which issues credentials with the library, over all histories. -/

namespace Oid4vci

open Spec CredentialIssuer AccessToken

/-- A credential request passes if and only if there is a valid key proof for the nonce within its lifetime, of a DID that
resolves, and the credential was offered; the response then names that DID. -/
theorem C125_passes {x : Ext} (S : Setting x) (now : Time) (m : CredentialIssuerMetadata) (o : CredentialOffer)
    (c : CNonceOptions) (f : CredentialFormatProfile) (type token : Str) :
    (∃ resp, Admitted S now m o c ⟨f, some ⟨type, token⟩⟩ resp) ↔
      DistinctIds m.credentialsSupported ∧ now ≤ nonceExpiry c ∧ nonceExpiry c ≤ Time.max ∧
      EqFold type (str! "JWT") ∧ (∃ e ∈ o.credentials, StandsFor m e f) ∧
      ∃ did d, NamesKeyOf x S.resolve token did d ∧
        ValidKeyProof x S.verifies now ⟨m.credentialIssuer, c.expectedCNonce, checkedClient o S.client, d⟩
          token := by
  constructor
  · rintro ⟨resp, pre, did, d, p, jwt, h1, h2, h3, h4, hp, h5, h6, h7⟩
    cases hp
    have h4' := h4
    obtain ⟨hm, -, o', jwt', did', key, sig, msg, ho, ⟨⟨p', hp', hj⟩, -, ⟨c', hc, -, hn, hmax⟩, -, -⟩, hk, -, -, rfl⟩ :=
      (evaluate_ok_iff ..).1 h4'
    cases hp'; cases hc
    rw [h5] at hj; cases hj
    obtain ⟨ht, hv, hoff⟩ := (C120_careful x S.verifies now m o d c S.client f type token hm hn hmax).1
      ⟨pre, _, jwt, h1, h4, h5, h6, h7⟩
    have hd := (C26_same_did _ _ _ _ _ _ _ _ _ _ h1 h4).1
    rw [h2] at hd; cases hd
    obtain ⟨kid, url, d', vm, jwk, a1, a2, a3, -⟩ := hk
    exact ⟨hm, hn, hmax, ht, hoff, did, d, ⟨jwt, kid, url, (C67_jwt ..).1 h5, a1, a2, a3, h3⟩, hv⟩
  · rintro ⟨hm, hn, hmax, ht, hoff, did, d, ⟨jwt', kid, url, b1, b2, b3, b4, b5⟩, hv⟩
    obtain ⟨pre, resp, jwt, h1, h4, h5, h6, h7⟩ :=
      (C120_careful x S.verifies now m o d c S.client f type token hm hn hmax).2 ⟨ht, hv, hoff⟩
    have hd := (C26_same_did _ _ _ _ _ _ _ _ _ _ h1 h4).1
    have h4' := h4
    obtain ⟨-, -, o', jwt'', did', key, sig, msg, ho, ⟨⟨p', hp', hj⟩, -⟩, hk, -, -, rfl⟩ := (evaluate_ok_iff ..).1 h4'
    cases hp'
    have b1' := (C67_jwt ..).2 b1
    simp only at hj
    rw [b1'] at hj; cases hj
    obtain ⟨kid', url', d', vm, jwk, a1, a2, a3, -⟩ := hk
    rw [b2] at a1; cases a1
    rw [b3] at a2; cases a2
    subst a3 b4
    exact ⟨_, pre, url.did, d, _, jwt, h1, hd, b5, h4, rfl, h5, h6, h7⟩

/-- What the response of a request that passes says. -/
theorem passes_response {x : Ext} {S : Setting x} {now : Time} {m : CredentialIssuerMetadata} {o : CredentialOffer}
    {c : CNonceOptions} {r : CredentialRequest} {resp : CredentialIssuerEvaluateRequestResponse}
    (h : Admitted S now m o c r resp) :
    ∃ type token did d pop, r = ⟨resp.credential, some ⟨type, token⟩⟩ ∧ PresentsKey x S.resolve token did d pop ∧
      resp.subjectId = some did ∧ resp.proofOfPossession = some pop ∧ now ≤ nonceExpiry c ∧
      (∃ e ∈ o.credentials, StandsFor m e resp.credential) ∧
      ValidKeyProof x S.verifies now ⟨m.credentialIssuer, c.expectedCNonce, checkedClient o S.client, d⟩
        token := by
  have h' := h
  obtain ⟨pre, did, d, p, jwt, h1, h2, h3, h4, hp, h5, h6, h7⟩ := h'
  have h4' := h4
  obtain ⟨hm, -, o', jwt', did', key, sig, msg, ho, ⟨⟨p', hp', hj⟩, -, ⟨c', hc, -, hn, hmax⟩, -, -⟩, hk, -, -, rfl⟩ :=
    (evaluate_ok_iff ..).1 h4'
  obtain ⟨f, pr⟩ := r
  simp only at hp hp'
  rw [hp] at hp'; cases hp'; cases hc
  rw [h5] at hj; cases hj
  subst hp
  obtain ⟨type, token⟩ := p
  obtain ⟨-, hv, hoff⟩ := (C120_careful x S.verifies now m o d c S.client f type token hm hn hmax).1
    ⟨pre, _, jwt, h1, h4, h5, h6, h7⟩
  have hd := (C26_same_did _ _ _ _ _ _ _ _ _ _ h1 h4).1
  rw [h2] at hd; cases hd
  exact ⟨type, token, did, d, _, rfl, ⟨jwt, (C67_jwt ..).1 h5, hk, h3, rfl⟩, rfl, rfl, hn, hoff, hv⟩

theorem keyResolved_unique {x : Ext} {h : ProofJwtHeader} {doc : Option x.Doc} {did did' : Str} {key key' : Bytes}
    (hk : KeyResolved x h doc did key) (hk' : KeyResolved x h doc did' key') : did = did' ∧ key = key' := by
  obtain ⟨kid, url, d, vm, jwk, a1, a2, a3, a4, a5, a6, a7⟩ := hk
  obtain ⟨kid', url', d', vm', jwk', b1, b2, b3, b4, b5, b6, b7⟩ := hk'
  rw [a1] at b1; cases b1
  rw [a2] at b2; cases b2
  rw [a4] at b4; cases b4
  rw [a5] at b5; cases b5
  rw [a6] at b6; cases b6
  refine ⟨a3.symm.trans b3, ?_⟩
  rcases a7 with e | ⟨e, -⟩ <;> rcases b7 with e' | ⟨e', -⟩ <;> rw [e] at e' <;> cases e' <;> rfl

/-- What is known about an answer. -/
def Accounted {x : Ext} (S : Setting x) (s : Service) (a : Answer) : Prop :=
  ∃ v c m, s.store a.session = some v ∧ v.stage.nonce = some c ∧ (S.order = .spendFirst → v.stage = .spent c) ∧
    Extends v.terms m ∧ Admitted S a.time m v.offer c a.request a.response ∧ c.cNonceCreatedAt ≤ a.time ∧ a.time ≤ s.now

/-- What holds of the store in every state. -/
structure StoreInv {x : Ext} (S : Setting x) (s : Service) : Prop where
  issuer : s.metadata.credentialIssuer = S.issuer
  made : ∀ i v, s.store i = some v → Extends v.terms s.metadata ∧
    ∃ cs endpoint p url, createOffer v.terms cs endpoint none p = .ok (v.offer, url)
  fresh : ∀ i j v w c c', s.store i = some v → s.store j = some w → v.stage.nonce = some c → w.stage.nonce = some c' →
    c.expectedCNonce = c'.expectedCNonce → i = j
  past : ∀ i v c, s.store i = some v → v.stage.nonce = some c → c.cNonceCreatedAt ≤ s.now
  redeemed : ∀ i v c, s.store i = some v → v.stage.nonce = some c → ∃ r ∈ s.redemptions, r.session = i
  redemption : ∀ r ∈ s.redemptions, ∃ v c, s.store r.session = some v ∧ v.stage.nonce = some c ∧
    r.time = c.cNonceCreatedAt ∧ TokenAccepted 9 r.request (some v.offer) (some ⟨v.pin⟩)
  once : (s.redemptions.map (·.session)).Nodup

/-- What holds in every state. -/
structure Inv {x : Ext} (S : Setting x) (s : Service) : Prop where
  store : StoreInv S s
  flight : ∀ a ∈ s.flight, Accounted S s a
  delivered : ∀ a ∈ s.delivered, Accounted S s a
  single : S.order = .spendFirst → ((s.flight ++ s.delivered).map (·.session)).Nodup

theorem extends_refl {m : CredentialIssuerMetadata} (h : DistinctIds m.credentialsSupported) : Extends m m :=
  ⟨rfl, fun _ hc => hc, h⟩

theorem extends_trans {m m' m'' : CredentialIssuerMetadata} (h : Extends m m') (h' : Extends m' m'') : Extends m m'' :=
  ⟨h'.1.trans h.1, fun c hc => h'.2.1 c (h.2.1 c hc), h'.2.2⟩

/-- What an entry that could be resolved stands for now, it stood for before. -/
theorem standsFor_before {m m' : CredentialIssuerMetadata} (hm : DistinctIds m.credentialsSupported) (h : Extends m m')
    {c : CredentialOrId} {f : CredentialFormatProfile} (hr : Resolvable m c) (hc : StandsFor m' c f) :
    StandsFor m c f := by
  cases c with
  | credential c => exact hc
  | credentialId id =>
    obtain ⟨g, hg⟩ := (knownId_iff m id).1 hr
    have h1 := standsFor_extends hm h (c := .credentialId id) ((resolve_id_ok_iff m id g).1 hg)
    have h2 := (resolve_id_ok_iff m' id g).2 h1
    rw [(resolve_id_ok_iff m' id f).2 hc] at h2
    cases h2
    exact (resolve_id_ok_iff m id f).1 hg

theorem put_some {s : Service} {i j : Nat} {v w : Session} :
    s.put i v j = some w ↔ (j = i ∧ w = v) ∨ (j ≠ i ∧ s.store j = some w) := by
  unfold Service.put
  by_cases h : j = i <;> simp [h, eq_comm]

/-- An entry changes, its offer, PIN and nonce stay. -/
theorem StoreInv.change {x : Ext} {S : Setting x} {s s' : Service} {i : Nat} {v v' : Session} (h : StoreInv S s)
    (hv : s.store i = some v) (hs : s'.store = s.put i v') (hte : v'.terms = v.terms) (ho : v'.offer = v.offer)
    (hp : v'.pin = v.pin) (hmd : s'.metadata = s.metadata) (hn : v'.stage.nonce = v.stage.nonce) (ht : s'.now = s.now)
    (hr : s'.redemptions = s.redemptions) : StoreInv S s' := by
  have key : ∀ j w', s'.store j = some w' → ∃ w, s.store j = some w ∧ w'.offer = w.offer ∧ w'.pin = w.pin ∧
      w'.stage.nonce = w.stage.nonce ∧ w'.terms = w.terms := by
    intro j w' hw
    rw [hs] at hw
    obtain ⟨rfl, rfl⟩ | ⟨-, hw⟩ := put_some.1 hw
    · exact ⟨v, hv, ho, hp, hn, hte⟩
    · exact ⟨w', hw, rfl, rfl, rfl, rfl⟩
  refine ⟨by rw [hmd]; exact h.issuer, ?_, ?_, ?_, ?_, ?_, by rw [hr]; exact h.once⟩
  · intro j w' hw
    obtain ⟨w, h1, h2, -, -, h3⟩ := key j w' hw
    rw [h2, h3, hmd]; exact h.made j w h1
  · intro j k w' u' c c' hw hu h1 h2 h3
    obtain ⟨w, a1, -, -, a2, -⟩ := key j w' hw
    obtain ⟨u, b1, -, -, b2, -⟩ := key k u' hu
    exact h.fresh j k w u c c' a1 b1 (a2 ▸ h1) (b2 ▸ h2) h3
  · intro j w' c hw hc
    obtain ⟨w, a1, -, -, a2, -⟩ := key j w' hw
    rw [ht]; exact h.past j w c a1 (a2 ▸ hc)
  · intro j w' c hw hc
    obtain ⟨w, a1, -, -, a2, -⟩ := key j w' hw
    rw [hr]; exact h.redeemed j w c a1 (a2 ▸ hc)
  · intro r hr'
    rw [hr] at hr'
    obtain ⟨w, c, h1, h2, h3, h4⟩ := h.redemption r hr'
    by_cases e : r.session = i
    · rw [e, hv] at h1; cases h1
      exact ⟨v', c, by rw [hs]; exact put_some.2 (.inl ⟨e, rfl⟩), hn.trans h2, h3, by rw [ho, hp]; exact h4⟩
    · exact ⟨w, c, by rw [hs]; exact put_some.2 (.inr ⟨e, h1⟩), h2, h3, h4⟩

/-- Changing one entry of the store keeps what is known about the answers, if offer and nonce stay. -/
theorem Accounted.put {x : Ext} {S : Setting x} {s s' : Service} {a : Answer} {i : Nat} {v v' : Session}
    (h : Accounted S s a) (hv : s.store i = some v) (hs : s'.store = s.put i v') (hte : v'.terms = v.terms)
    (ho : v'.offer = v.offer) (hn : ∀ c, v.stage.nonce = some c → v'.stage.nonce = some c)
    (hsp : ∀ c, v.stage = .spent c → v'.stage = .spent c) (ht : s.now ≤ s'.now) : Accounted S s' a := by
  obtain ⟨w, c, m, h1, h2, h3, hx, h4, h5, h6⟩ := h
  by_cases e : a.session = i
  · subst e
    rw [hv] at h1; cases h1
    refine ⟨v', c, m, by rw [hs]; simp [Service.put], hn _ h2, fun hh => hsp _ (h3 hh), by rw [hte]; exact hx,
      by rw [ho]; exact h4, h5,
      Int.le_trans h6 ht⟩
  · exact ⟨w, c, m, by rw [hs]; simp [Service.put, e, h1], h2, h3, hx, h4, h5, Int.le_trans h6 ht⟩

theorem Spec.Stage.spend_nonce (g : Stage) : g.spend.nonce = g.nonce := by cases g <;> rfl

theorem Accounted.later {x : Ext} {S : Setting x} {s s' : Service} {a : Answer} (h : Accounted S s a) (hs : s'.store = s.store)
    (ht : s.now ≤ s'.now) : Accounted S s' a := by
  obtain ⟨w, c, m, h1, h2, h3, hx, h4, h5, h6⟩ := h
  exact ⟨w, c, m, by rw [hs]; exact h1, h2, h3, hx, h4, h5, Int.le_trans h6 ht⟩

/-- The invariant holds in every state. -/
theorem reachable_inv {x : Ext} (S : Setting x) (s : Service) (h : Reachable S s) : Inv S s := by
  induction h with
  | start t m hm => exact ⟨⟨hm, by simp, by simp, by simp, by simp, by simp, by simp⟩, by simp, by simp, by simp⟩
  | step s s' _ hstep ih =>
    obtain ⟨hst, hf, hd, hs⟩ := ih
    cases hstep with
    | tick t ht =>
      exact ⟨⟨hst.issuer, hst.made, hst.fresh, fun i v c h1 h2 => Int.le_trans (hst.past i v c h1 h2) ht, hst.redeemed,
        hst.redemption, hst.once⟩, fun a ha => (hf a ha).later rfl ht, fun a ha => (hd a ha).later rfl ht, hs⟩
    | change m hm =>
      exact ⟨⟨hm.1.trans hst.issuer, fun i v hv => ⟨extends_trans (hst.made i v hv).1 hm, (hst.made i v hv).2⟩, hst.fresh,
        hst.past, hst.redeemed, hst.redemption, hst.once⟩, fun a ha => (hf a ha).later rfl (Int.le_refl _),
        fun a ha => (hd a ha).later rfl (Int.le_refl _), hs⟩
    | offer i cs endpoint p pin o url hi ho =>
      have keep : ∀ a, Accounted S s a → Accounted S { s with store := s.put i ⟨s.metadata, o, pin, .offered⟩ } a := by
        rintro a ⟨v, c, m, h1, h2, h3, hx, h4, h5, h6⟩
        refine ⟨v, c, m, put_some.2 (.inr ⟨fun e => ?_, h1⟩), h2, h3, hx, h4, h5, h6⟩
        rw [e, hi] at h1; cases h1
      refine ⟨⟨hst.issuer, ?_, ?_, ?_, ?_, ?_, hst.once⟩, fun a ha => keep a (hf a ha), fun a ha => keep a (hd a ha), hs⟩
      · intro j v hv
        obtain ⟨rfl, rfl⟩ | ⟨-, hv⟩ := put_some.1 hv
        · exact ⟨extends_refl ((C12_create_offer ..).1.1 ⟨_, ho⟩).1, cs, endpoint, p, url, ho⟩
        · exact hst.made j v hv
      · intro j k v w c c' hv hw h1 h2 h3
        obtain ⟨rfl, rfl⟩ | ⟨-, hv⟩ := put_some.1 hv
        · cases h1
        · obtain ⟨rfl, rfl⟩ | ⟨-, hw⟩ := put_some.1 hw
          · cases h2
          · exact hst.fresh j k v w c c' hv hw h1 h2 h3
      · intro j v c hv h1
        obtain ⟨rfl, rfl⟩ | ⟨-, hv⟩ := put_some.1 hv
        · cases h1
        · exact hst.past j v c hv h1
      · intro j v c hv h1
        obtain ⟨rfl, rfl⟩ | ⟨-, hv⟩ := put_some.1 hv
        · cases h1
        · exact hst.redeemed j v c hv h1
      · intro r hr
        obtain ⟨v, c, h1, h2, h3, h4⟩ := hst.redemption r hr
        refine ⟨v, c, put_some.2 (.inr ⟨fun e => ?_, h1⟩), h2, h3, h4⟩
        rw [e, hi] at h1; cases h1
    | token i v r lifetime nonce hi hstage he hfresh =>
      have keep : ∀ a, Accounted S s a → Accounted S { s with
          store := s.put i { v with stage := .redeemed ⟨lifetime, nonce, s.now⟩ }
          redemptions := ⟨i, s.now, r⟩ :: s.redemptions } a := fun a ha =>
        ha.put (s' := { s with
          store := s.put i { v with stage := .redeemed ⟨lifetime, nonce, s.now⟩ }
          redemptions := ⟨i, s.now, r⟩ :: s.redemptions }) hi rfl rfl rfl (by simp [hstage, Stage.nonce]) (by simp [hstage])
          (Int.le_refl _)
      refine ⟨⟨hst.issuer, ?_, ?_, ?_, ?_, ?_, ?_⟩, fun a ha => keep a (hf a ha), fun a ha => keep a (hd a ha), hs⟩
      · intro j w hw
        obtain ⟨rfl, rfl⟩ | ⟨-, hw⟩ := put_some.1 hw
        · exact hst.made j v hi
        · exact hst.made j w hw
      · intro j k u w c c' hu hw h1 h2 h3
        obtain ⟨rfl, rfl⟩ | ⟨-, hu'⟩ := put_some.1 hu
        · obtain ⟨rfl, rfl⟩ | ⟨-, hw⟩ := put_some.1 hw
          · rfl
          · cases h1
            exact absurd h3.symm (hfresh k w c' hw h2)
        · obtain ⟨rfl, rfl⟩ | ⟨-, hw⟩ := put_some.1 hw
          · cases h2
            exact absurd h3 (hfresh j u c hu' h1)
          · exact hst.fresh j k u w c c' hu' hw h1 h2 h3
      · intro j w c hw h1
        obtain ⟨rfl, rfl⟩ | ⟨-, hw⟩ := put_some.1 hw
        · cases h1; exact Int.le_refl _
        · exact hst.past j w c hw h1
      · intro j w c hw h1
        obtain ⟨rfl, rfl⟩ | ⟨-, hw⟩ := put_some.1 hw
        · exact ⟨_, List.mem_cons_self, rfl⟩
        · obtain ⟨r', h2, h3⟩ := hst.redeemed j w c hw h1
          exact ⟨r', List.mem_cons_of_mem _ h2, h3⟩
      · intro r' hr
        rcases List.mem_cons.1 hr with rfl | hr
        · exact ⟨_, _, put_some.2 (.inl ⟨rfl, rfl⟩), rfl, rfl, (C01_accept_iff ..).1 he⟩
        · obtain ⟨w, c, h1, h2, h3, h4⟩ := hst.redemption r' hr
          refine ⟨w, c, put_some.2 (.inr ⟨fun e => ?_, h1⟩), h2, h3, h4⟩
          rw [e, hi] at h1; cases h1
          rw [hstage] at h2; cases h2
      · refine List.nodup_cons.2 ⟨fun hm => ?_, hst.once⟩
        obtain ⟨r', hr, e⟩ := List.mem_map.1 hm
        obtain ⟨w, c, h1, h2, -⟩ := hst.redemption r' hr
        rw [e] at h1
        simp only [hi] at h1; cases h1
        rw [hstage] at h2; cases h2
    | credential i v c r resp hi hstage hp =>
      have hpast := hst.past i v c hi (by rw [hstage]; rfl)
      by_cases ho : S.order = .spendFirst
      · simp only [ho, if_true]
        have keep : ∀ a, Accounted S s a → Accounted S { s with
            store := s.put i { v with stage := .spent c }
            flight := ⟨i, s.now, r, resp⟩ :: s.flight } a := fun a ha =>
          ha.put (s' := { s with
            store := s.put i { v with stage := .spent c }
            flight := ⟨i, s.now, r, resp⟩ :: s.flight }) hi rfl rfl rfl (by simp [hstage, Stage.nonce]) (by simp [hstage])
            (Int.le_refl _)
        refine ⟨hst.change hi rfl rfl rfl rfl rfl (by simp [hstage, Stage.nonce]) rfl rfl, ?_, fun a ha => keep a (hd a ha), ?_⟩
        · intro a ha
          rcases List.mem_cons.1 ha with rfl | ha
          · exact ⟨_, c, _, put_some.2 (.inl ⟨rfl, rfl⟩), rfl, fun _ => rfl, (hst.made i v hi).1, hp, hpast, Int.le_refl _⟩
          · exact keep a (hf a ha)
        · intro _
          refine List.nodup_cons.2 ⟨fun hm => ?_, hs ho⟩
          obtain ⟨a, ha, e⟩ := List.mem_map.1 hm
          have hk : Accounted S s a := (List.mem_append.1 ha).elim (hf a) (hd a)
          obtain ⟨w, c', m, h1, h2, h3, -⟩ := hk
          rw [e] at h1
          simp only [hi] at h1; cases h1
          have := h3 ho
          rw [hstage] at this; cases this
      · simp only [ho, if_false]
        refine ⟨⟨hst.issuer, hst.made, hst.fresh, hst.past, hst.redeemed, hst.redemption, hst.once⟩, ?_,
          fun a ha => (hd a ha).later rfl (Int.le_refl _), fun h => absurd h ho⟩
        intro a ha
        rcases List.mem_cons.1 ha with rfl | ha
        · exact ⟨v, c, _, hi, by rw [hstage]; rfl, fun h => absurd h ho, (hst.made i v hi).1, hp, hpast, Int.le_refl _⟩
        · exact (hf a ha).later rfl (Int.le_refl _)
    | deliver a before after v hfl hi =>
      have keep : ∀ b, Accounted S s b → Accounted S { s with
          store := s.put a.session { v with stage := v.stage.spend }
          flight := before ++ after
          delivered := a :: s.delivered } b := fun b hb =>
        hb.put (s' := { s with
          store := s.put a.session { v with stage := v.stage.spend }
          flight := before ++ after
          delivered := a :: s.delivered }) hi rfl rfl rfl (fun c hc => (Stage.spend_nonce _).trans hc)
          (fun c hc => by simp only [hc, Stage.spend]) (Int.le_refl _)
      refine ⟨hst.change hi rfl rfl rfl rfl rfl (Stage.spend_nonce _) rfl rfl, ?_, ?_, ?_⟩
      · intro b hb
        refine keep b (hf b ?_)
        rw [hfl]
        rcases List.mem_append.1 hb with hb | hb
        · exact List.mem_append_left _ hb
        · exact List.mem_append_right _ (List.mem_cons_of_mem _ hb)
      · intro b hb
        rcases List.mem_cons.1 hb with rfl | hb
        · exact keep b (hf b (by rw [hfl]; simp))
        · exact keep b (hd b hb)
      · intro ho
        have h1 := hs ho
        rw [hfl] at h1
        refine List.Perm.nodup ?_ h1
        refine List.Perm.map _ ?_
        simp only [List.append_assoc, List.cons_append]
        exact List.Perm.append_left before (List.perm_middle.symm)
    | crash =>
      refine ⟨⟨hst.issuer, hst.made, hst.fresh, hst.past, hst.redeemed, hst.redemption, hst.once⟩, by simp,
        fun a ha => (hd a ha).later rfl (Int.le_refl _), fun ho => ?_⟩
      have h1 := hs ho
      rw [List.map_append] at h1
      exact (List.nodup_append.1 h1).2.1

/-- C125, first part: whatever happens, every answer that was delivered, or is about to be, is rightful. -/
theorem C125_rightful {x : Ext} (S : Setting x) (s : Service) (h : Reachable S s) (a : Answer)
    (ha : a ∈ s.flight ++ s.delivered) : Rightful S s a := by
  have hinv := reachable_inv S s h
  obtain ⟨v, c, m, h1, h2, -, hx, h4, h5, -⟩ := (List.mem_append.1 ha).elim (hinv.flight a) (hinv.delivered a)
  obtain ⟨type, token, did, d, pop, e1, e2, e3, e7, e4, e5, e6⟩ := passes_response h4
  obtain ⟨r, r1, r2⟩ := hinv.store.redeemed _ v c h1 h2
  obtain ⟨v', c', q1, q2, q3, q4⟩ := hinv.store.redemption r r1
  rw [r2, h1] at q1; cases q1
  rw [h2] at q2; cases q2
  obtain ⟨hnow, cs, endpoint, p, url, hm⟩ := hinv.store.made _ v h1
  obtain ⟨hi, hcs, -⟩ := (C12_create_offer v.terms cs endpoint none p).2.1 _ _ hm
  obtain ⟨hd, -, hres⟩ := (C12_create_offer v.terms cs endpoint none p).1.1 ⟨_, hm⟩
  have hiss : v.terms.credentialIssuer = S.issuer := hnow.1.symm.trans hinv.store.issuer
  rw [hx.1, hiss] at e6
  obtain ⟨e, he, hst⟩ := e5
  exact ⟨v, c, r, type, token, did, d, pop, h1, h2, hi.trans hiss,
    ⟨e, he, standsFor_before hd hx (hres e (hcs ▸ he)) hst⟩, r1, r2, q4, q3, q3 ▸ h5, e4, e1, e6, e2, e3, e7⟩

/-- C125, second part: an offer is redeemed at most once, and if nonces are spent before answering, it is answered at most
once, counting what is still in flight. -/
theorem C125_once {x : Ext} (S : Setting x) (s : Service) (h : Reachable S s) :
    (s.redemptions.map (·.session)).Nodup ∧
    (S.order = .spendFirst → ((s.flight ++ s.delivered).map (·.session)).Nodup) :=
  ⟨(reachable_inv S s h).store.once, (reachable_inv S s h).single⟩

/-- A message says at most one nonce and one issuer. -/
theorem says_one {x : Ext} {i i' n n' : Str} {m : Bytes} (h : Says x i n m) (h' : Says x i' n' m) : i = i' ∧ n = n' := by
  obtain ⟨j, t, rfl, h1, -, rfl, rfl⟩ := h
  obtain ⟨j', t', e, h1', -, rfl, rfl⟩ := h'
  have := utf8Encode_injective e; subst this
  have a := (C67_jwt ..).2 h1
  rw [(C67_jwt ..).2 h1'] at a; cases a
  exact ⟨rfl, rfl⟩

/-- What is signed with a key proof says for which issuer and nonce. -/
theorem validKeyProof_says {x : Ext} {verifies : Scheme} {now : Time} {e : Expected x} {token : Str}
    (h : ValidKeyProof x verifies now e token) : ∃ jwt did key message sig, JwtText x jwt token ∧
      KeyResolved x jwt.header (some e.document) did key ∧ Asymmetric jwt.header.alg ∧
      verifies jwt.header.alg key message sig ∧ Says x e.issuer e.nonce message := by
  obtain ⟨jwt, did, key, hj, -, ha, hk, ⟨hd, bd, sg, sig, rfl, n1, n2, n3, -, hv⟩, haud, hn, -, -⟩ := h
  refine ⟨jwt, did, key, _, sig, hj, hk, ha, hv, ⟨jwt.header, jwt.body, none⟩, _, rfl, ?_, rfl, haud, hn⟩
  obtain ⟨h', b', rest, hnd, heq, hh, hb, hr⟩ := hj
  have e := splitOn_dotted (h' :: b' :: rest) (by simp) hnd
  rw [← heq, splitOn_dotted _ (by simp) (by simp [n1, n2, n3])] at e
  cases e
  exact ⟨hd, bd, [], by simp [n1, n2], by simp [dotted, List.intercalate], hh, hb, rfl⟩

/-- C125, third part: if signatures cannot be forged, then behind every answer stands a message, signed by the holder of
the reported key, which says: for this issuer, and for the nonce that was handed out when the offer's code was redeemed.
That key is the one which the subject's DID document lists under the name given in the proof. -/
theorem C125_agreement {x : Ext} (S : Setting x) (signed : Bytes → Bytes → Prop) (hu : Unforgeable S.verifies signed)
    (s : Service) (h : Reachable S s) (a : Answer) (ha : a ∈ s.flight ++ s.delivered) :
    ∃ v c did d type token pop message, s.store a.session = some v ∧ v.stage.nonce = some c ∧
      a.response.subjectId = some did ∧ a.response.proofOfPossession = some pop ∧
      a.request.proof = some ⟨type, token⟩ ∧ PresentsKey x S.resolve token did d pop ∧
      signed pop.publicKey message ∧ Says x S.issuer c.expectedCNonce message := by
  obtain ⟨v, c, r, type, token, did, d, pop, h1, h2, -, -, -, -, -, -, -, -, ha', hv, hpk, e3, e4⟩ :=
    C125_rightful S s h a ha
  obtain ⟨jwt, did', key, message, sig, hj, hk, hal, hver, hsay⟩ := validKeyProof_says hv
  have hpk' := hpk
  obtain ⟨jwt', b1, b2, -, -⟩ := hpk'
  have q := (C67_jwt ..).2 hj
  rw [(C67_jwt ..).2 b1] at q; cases q
  obtain ⟨rfl, rfl⟩ := keyResolved_unique b2 hk
  exact ⟨v, c, did, d, type, token, pop, message, h1, h2, e3, e4, by rw [ha'], hpk, hu _ _ _ _ hal hver, hsay⟩

/-- C125, third part, in other words: whoever has signed messages for other issuers only is not answered by this one. -/
theorem C125_no_relay {x : Ext} (S : Setting x) (signed : Bytes → Bytes → Prop) (hu : Unforgeable S.verifies signed)
    (key : Bytes) (hother : ∀ message, signed key message → ∃ issuer nonce, issuer ≠ S.issuer ∧ Says x issuer nonce message)
    (s : Service) (h : Reachable S s) (a : Answer) (ha : a ∈ s.flight ++ s.delivered) (pop : ProofOfPossession)
    (hpop : a.response.proofOfPossession = some pop) : pop.publicKey ≠ key := by
  rintro rfl
  obtain ⟨v, c, did, d, type, token, pop', message, -, -, -, h1, -, -, h2, h3⟩ := C125_agreement S signed hu s h a ha
  rw [hpop] at h1; cases h1
  obtain ⟨issuer, nonce, hne, h4⟩ := hother message h2
  exact hne (says_one h4 h3).1

/-- C125, fourth part: one message does not stand behind the answers to two offers. -/
theorem C125_injective {x : Ext} (S : Setting x) (s : Service) (h : Reachable S s) (i j : Nat) (v w : Session)
    (c c' : CNonceOptions) (issuer issuer' : Str) (message : Bytes) (hv : s.store i = some v) (hw : s.store j = some w)
    (hc : v.stage.nonce = some c) (hc' : w.stage.nonce = some c') (h1 : Says x issuer c.expectedCNonce message)
    (h2 : Says x issuer' c'.expectedCNonce message) : i = j :=
  (reachable_inv S s h).store.fresh i j v w c c' hv hw hc hc' (says_one h1 h2).2

/-- C125, fifth part: within the lifetime of the nonce, a valid key proof for an offered credential is answered, and the
answer can be delivered at once. -/
theorem C125_progress {x : Ext} (S : Setting x) (s : Service) (h : Reachable S s) (i : Nat) (v : Session)
    (c : CNonceOptions) (f : CredentialFormatProfile) (type token did : Str) (d : x.Doc) (hv : s.store i = some v)
    (hc : v.stage = .redeemed c) (hn : s.now ≤ nonceExpiry c) (hmax : nonceExpiry c ≤ Time.max)
    (ht : EqFold type (str! "JWT")) (ho : ∃ e ∈ v.offer.credentials, StandsFor v.terms e f)
    (hk : NamesKeyOf x S.resolve token did d)
    (hp : ValidKeyProof x S.verifies s.now
      ⟨S.issuer, c.expectedCNonce, checkedClient v.offer S.client, d⟩ token) :
    ∃ resp s' s'', Step S s s' ∧ Step S s' s'' ∧ s''.delivered = ⟨i, s.now, ⟨f, some ⟨type, token⟩⟩, resp⟩ :: s.delivered ∧
      resp.subjectId = some did ∧ resp.credential = f := by
  obtain ⟨hx, cs, endpoint, p, url, hm⟩ := (reachable_inv S s h).store.made _ v hv
  have hd := ((C12_create_offer v.terms cs endpoint none p).1.1 ⟨_, hm⟩).1
  rw [← (reachable_inv S s h).store.issuer] at hp
  obtain ⟨e, he, ho⟩ := ho
  replace ho : ∃ e ∈ v.offer.credentials, StandsFor s.metadata e f := ⟨e, he, standsFor_extends hd hx ho⟩
  replace hd := hx.2.2
  obtain ⟨resp, hpass⟩ := (C125_passes S s.now s.metadata v.offer c f type token).2 ⟨hd, hn, hmax, ht, ho, did, d, hk, hp⟩
  have hstep := Step.credential (S := S) s i v c _ resp hv hc hpass
  obtain ⟨w, hw⟩ : ∃ w, (if S.order = .spendFirst then s.put i { v with stage := .spent c } else s.store) i = some w := by
    by_cases e : S.order = .spendFirst
    · exact ⟨_, by rw [if_pos e]; exact put_some.2 (.inl ⟨rfl, rfl⟩)⟩
    · exact ⟨_, by rw [if_neg e]; exact hv⟩
  refine ⟨resp, _, _, hstep, Step.deliver _ ⟨i, s.now, _, resp⟩ [] s.flight w rfl hw, rfl, ?_⟩
  obtain ⟨type', token', did', d', pop, e1, ⟨jwt', q1, ⟨kid', url', _, _, _, q2, q3, q4, -⟩, -⟩, e3, -⟩ :=
    passes_response hpass
  obtain ⟨jwt, kid, url, p1, p2, p3, p4, -⟩ := hk
  cases e1
  have q := (C67_jwt ..).2 q1
  rw [(C67_jwt ..).2 p1] at q; cases q
  rw [p2] at q2; cases q2
  rw [p3] at q3; cases q3
  rw [p4] at q4; subst q4
  exact ⟨e3, rfl⟩

/-- C125, sixth part: if the service stops after a nonce was spent and before the answer was delivered, no answer will
ever be delivered for that offer. -/
theorem C125_final {x : Ext} (S : Setting x) (s s' : Service) (i : Nat) (v : Session) (c : CNonceOptions)
    (hv : s.store i = some v) (hc : v.stage = .spent c) (hf : ∀ a ∈ s.flight, a.session ≠ i)
    (h : Relation.ReflTransGen (Step S) s s') :
    s'.delivered.filter (·.session = i) = s.delivered.filter (·.session = i) := by
  suffices H : (∃ w, s'.store i = some w ∧ w.stage = .spent c) ∧ (∀ a ∈ s'.flight, a.session ≠ i) ∧
      s'.delivered.filter (·.session = i) = s.delivered.filter (·.session = i) from H.2.2
  induction h with
  | refl => exact ⟨⟨v, hv, hc⟩, hf, rfl⟩
  | tail _ hstep ih =>
    obtain ⟨⟨w, hw, hwc⟩, hfl, hd⟩ := ih
    cases hstep with
    | tick t ht => exact ⟨⟨w, hw, hwc⟩, hfl, hd⟩
    | change m hm => exact ⟨⟨w, hw, hwc⟩, hfl, hd⟩
    | offer j cs endpoint p pin o url hj ho =>
      refine ⟨⟨w, put_some.2 (.inr ⟨fun e => ?_, hw⟩), hwc⟩, hfl, hd⟩
      rw [e, hj] at hw; cases hw
    | token j u r lifetime nonce hj hstage he hfresh =>
      refine ⟨⟨w, put_some.2 (.inr ⟨fun e => ?_, hw⟩), hwc⟩, hfl, hd⟩
      rw [e, hj] at hw; cases hw
      rw [hstage] at hwc; cases hwc
    | credential j u c' r resp hj hstage hp =>
      have hne : i ≠ j := by
        rintro rfl
        rw [hj] at hw; cases hw
        rw [hstage] at hwc; cases hwc
      refine ⟨⟨w, ?_, hwc⟩, ?_, hd⟩
      · by_cases e : S.order = .spendFirst
        · simp only [if_pos e]; exact put_some.2 (.inr ⟨hne, hw⟩)
        · simp only [if_neg e]; exact hw
      · intro a ha
        rcases List.mem_cons.1 ha with rfl | ha
        · exact fun e => hne e.symm
        · exact hfl a ha
    | deliver a before after u hfl' hj =>
      have hne : a.session ≠ i := hfl a (by rw [hfl']; simp)
      refine ⟨⟨w, put_some.2 (.inr ⟨fun e => hne e.symm, hw⟩), hwc⟩, ?_, ?_⟩
      · intro b hb
        refine hfl b ?_
        rw [hfl']
        rcases List.mem_append.1 hb with hb | hb
        · exact List.mem_append_left _ hb
        · exact List.mem_append_right _ (List.mem_cons_of_mem _ hb)
      · rw [List.filter_cons_of_neg (by simpa using hne)]; exact hd
    | crash => exact ⟨⟨w, hw, hwc⟩, by simp, hd⟩

namespace Ex

/-- A service with the example's issuer; every DID resolves to the example's document. -/
def service (order : Order) : Setting ext := ⟨metadata.credentialIssuer, none, scheme, fun _ => some didDoc, order⟩

/-- The entry of the example's offer. -/
def session (g : Stage) : Session := ⟨metadata, mdocOffer, none, g⟩

/-- The nonce of the example. -/
def handedOut : CNonceOptions := ⟨100, str! "nonce", 0⟩

/-- The offer has been made and redeemed at the time 0; since then a credential was added; it is now 1000. -/
def redeemedState : Service :=
  ⟨1000, grown, fun j => if j = 5 then some (session (.redeemed handedOut)) else none, [],
    [⟨5, 0, tokenRequest (str! "code") none⟩], []⟩

theorem offerMade : ∃ url, createOffer metadata [.credentialId (str! "a"), .credentialId (str! "b")] none none
    (some ⟨str! "code", none⟩) = .ok (mdocOffer, url) := by
  obtain ⟨⟨o, u⟩, hr⟩ := (C12_create_offer metadata [.credentialId (str! "a"), .credentialId (str! "b")] none none
    (some ⟨str! "code", none⟩)).1.2 ⟨distinct, rfl, by
      intro c hc
      simp only [List.mem_cons, List.not_mem_nil, or_false] at hc
      rcases hc with rfl | rfl
      · exact ⟨entry (some (str! "a")) ldp, by simp [metadata], rfl⟩
      · exact ⟨entry (some (str! "b")) mdoc, by simp [metadata], rfl⟩⟩
  have := (C12_create_offer _ _ _ _ _).2.1 _ _ hr
  obtain ⟨i, cs, ⟨au, pr⟩⟩ := o
  obtain ⟨rfl, rfl, rfl, rfl⟩ := this
  exact ⟨u, hr⟩

theorem extends_grown : Extends metadata grown :=
  ⟨rfl, fun c hc => by simp [grown, hc], by rw [← metadata_validate_iff]; decide +kernel⟩

theorem redeemed_reachable (order : Order) : Reachable (service order) redeemedState := by
  obtain ⟨url, hurl⟩ := offerMade
  have h1 := Reachable.step _ _ (.start (S := service order) 0 metadata rfl) (.offer _ 5 _ none _ none mdocOffer url rfl hurl)
  have h2 := Reachable.step _ _ h1 (.token _ 5 (session .offered) (tokenRequest (str! "code") none) 100 (str! "nonce")
    (by simp [Service.put, session]) rfl (by decide +kernel) (by
      intro j w c hw hc
      obtain ⟨rfl, rfl⟩ | ⟨-, hw⟩ := put_some.1 hw
      · cases hc
      · cases hw))
  have h3 := Reachable.step _ _ h2 (.tick _ 1000 (by decide))
  have h4 := Reachable.step _ _ h3 (.change _ grown extends_grown)
  refine (congrArg (Reachable (service order)) ?_).mp h4
  simp only [redeemedState, session, handedOut, Service.mk.injEq, true_and, and_true]
  funext j
  by_cases e : j = 5 <;> simp [Service.put, e]

theorem isOffered : ∃ e ∈ mdocOffer.credentials, StandsFor metadata e mdoc :=
  ⟨.credentialId (str! "b"), by simp [mdocOffer],
    [entry none ldp, entry (some (str! "a")) ldp, entry none ldp], entry (some (str! "b")) mdoc, [], rfl, rfl, rfl,
    by decide +kernel⟩

theorem namesKey : NamesKeyOf ext (fun _ => some didDoc) (compact ext header plainBody (some (str! "c2ln")))
    (str! "did:example:h") didDoc := by
  obtain ⟨kid, url, d, vm, jwk, h1, h2, h3, -⟩ := keyResolved
  exact ⟨⟨header, plainBody, some (str! "c2ln")⟩, kid, url, (C67_jwt ..).1 fromStr_request, h1, h2, h3, rfl⟩

theorem requestPasses (order : Order) : ∃ resp, Admitted (service order) 1000 grown mdocOffer handedOut request resp :=
  (C125_passes (service order) 1000 grown mdocOffer handedOut mdoc (str! "jwt") _).2
    ⟨extends_grown.2.2, by decide +kernel, by decide +kernel, (uppercase_eq_iff _).1 (by decide +kernel),
      (let ⟨e, he, h⟩ := isOffered; ⟨e, he, standsFor_extends distinct extends_grown h⟩), _, _, namesKey,
      validKeyProof⟩

end Ex

/-- C125, seventh part: with the other order, two requests can pass before the first answer is delivered, and the offer is
answered twice. -/
theorem C125_order : ∃ (x : Ext) (S : Setting x) (s : Service), S.order = .answerFirst ∧ Reachable S s ∧
    ¬ (s.delivered.map (·.session)).Nodup := by
  obtain ⟨resp, hp⟩ := Ex.requestPasses .answerFirst
  have h1 := Reachable.step _ _ (Ex.redeemed_reachable .answerFirst)
    (.credential _ 5 (Ex.session (.redeemed Ex.handedOut)) Ex.handedOut Ex.request resp rfl rfl hp)
  have h2 := Reachable.step _ _ h1
    (.credential _ 5 (Ex.session (.redeemed Ex.handedOut)) Ex.handedOut Ex.request resp rfl rfl hp)
  have h3 := Reachable.step _ _ h2 (.deliver _ ⟨5, 1000, Ex.request, resp⟩ [] [⟨5, 1000, Ex.request, resp⟩] _ rfl rfl)
  have h4 := Reachable.step _ _ h3 (.deliver _ ⟨5, 1000, Ex.request, resp⟩ [] [] _ rfl rfl)
  refine ⟨Ex.ext, _, _, rfl, h4, ?_⟩
  simp

/-- The request passes and its answer is delivered. -/
example : ∃ s, Reachable (Ex.service .spendFirst) s ∧ ∃ a ∈ s.delivered, a.request = Ex.request ∧
    a.response.subjectId = some (str! "did:example:h") ∧ Rightful (Ex.service .spendFirst) s a ∧
    ∃ pop message, a.response.proofOfPossession = some pop ∧ pop.publicKey = [1, 2, 3] ∧
      ∃ nonce, Says Ex.ext (str! "https://issuer") nonce message := by
  obtain ⟨resp, s', s'', h1, h2, h3, h4, -⟩ := C125_progress (Ex.service .spendFirst) _ (Ex.redeemed_reachable _) 5
    (Ex.session (.redeemed Ex.handedOut)) Ex.handedOut Ex.mdoc (str! "jwt") _ _ _ rfl rfl (by decide +kernel)
    (by decide +kernel) ((uppercase_eq_iff _).1 (by decide +kernel)) Ex.isOffered Ex.namesKey Ex.validKeyProof
  have hr := Reachable.step _ _ (Reachable.step _ _ (Ex.redeemed_reachable .spendFirst) h1) h2
  have hm : (⟨5, 1000, Ex.request, resp⟩ : Answer) ∈ s''.delivered := by rw [h3]; exact List.mem_cons_self
  obtain ⟨_, _, _, _, _, _, pop, message, -, -, -, k1, -, -, k2, k3⟩ := C125_agreement (Ex.service .spendFirst)
    (fun key _ => key = [1, 2, 3]) (fun _ _ _ _ _ h => h.2.1) _ hr _ (List.mem_append_right _ hm)
  exact ⟨s'', hr, _, hm, rfl, h4, C125_rightful _ _ hr _ (List.mem_append_right _ hm), pop, message, k1, k2, _, k3⟩

/-- The service stops between the request and the delivery: the nonce is spent, and nothing was or will be delivered. -/
example : ∃ s, Reachable (Ex.service .spendFirst) s ∧ s.delivered = [] ∧
    ∀ s', Relation.ReflTransGen (Step (Ex.service .spendFirst)) s s' → ∀ a ∈ s'.delivered, a.session ≠ 5 := by
  obtain ⟨resp, hp⟩ := Ex.requestPasses .spendFirst
  have h1 := Reachable.step _ _ (Ex.redeemed_reachable .spendFirst)
    (.credential _ 5 (Ex.session (.redeemed Ex.handedOut)) Ex.handedOut Ex.request resp rfl rfl hp)
  have h2 := Reachable.step _ _ h1 (.crash _)
  refine ⟨_, h2, rfl, fun s' hs a ha e => ?_⟩
  have := C125_final _ _ _ 5 (Ex.session (.spent Ex.handedOut)) Ex.handedOut rfl rfl (by simp) hs
  have hm : a ∈ s'.delivered.filter (·.session = 5) := List.mem_filter.2 ⟨ha, by simpa using e⟩
  rw [this] at hm
  simp [Ex.redeemedState] at hm

/-- Under the example's scheme the signer is known, and a message says which nonce it is for. -/
example : Unforgeable Ex.scheme (fun key _ => key = [1, 2, 3]) := fun _ _ _ _ _ h => h.2.1
example : ∃ message, Says Ex.ext (str! "https://issuer") (str! "nonce") message := by
  obtain ⟨_, _, _, message, _, -, -, -, -, h⟩ := validKeyProof_says Ex.validKeyProof
  exact ⟨message, h⟩

end Oid4vci
