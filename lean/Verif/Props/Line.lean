import Verif.Props.Results
import Verif.Props.Offer
import Verif.Props.Jwt
import Verif.Lemmas.Shortest
import Verif.Spec.Line

/-!
Everything that is written is one line (C136).
-/

namespace Oid4vci

open Spec CredentialIssuer

theorem oneLine_append {s t : Str} : OneLine (s ++ t) ↔ OneLine s ∧ OneLine t := by
  unfold OneLine
  simp only [List.mem_append]
  exact ⟨fun h => ⟨fun c hc => h c (.inl hc), fun c hc => h c (.inr hc)⟩, fun h c hc => hc.elim (h.1 c) (h.2 c)⟩

theorem oneLine_cons {c : Char} {t : Str} : OneLine (c :: t) ↔ 0x20 ≤ c.toNat ∧ OneLine t := by
  unfold OneLine
  simp

theorem oneLine_digits {s : Str} (h : ∀ c ∈ s, Json.isDigit c = true) : OneLine s := by
  intro c hc
  have := h c hc
  unfold Json.isDigit at this
  simp only [Bool.and_eq_true, decide_eq_true_eq] at this
  omega

theorem oneLine_natDigits (n : Nat) : OneLine (Json.natDigits n) := oneLine_digits (Json.natDigits_props n).1

theorem oneLine_printInt (n : Int) : OneLine (Json.printInt n) := by
  cases n with
  | ofNat n => exact oneLine_natDigits n
  | negSucc n => exact oneLine_cons.2 ⟨by decide, oneLine_natDigits _⟩

theorem oneLine_sub {s t : Str} (h : OneLine t) (hs : ∀ c ∈ s, c ∈ t) : OneLine s := fun c hc => h c (hs c hc)

theorem oneLine_replicate (n : Nat) : OneLine (List.replicate n '0') := by
  intro c hc
  rw [(List.mem_replicate.1 hc).2]
  decide

theorem oneLine_layout {ds : Str} (h : OneLine ds) (k : Int) : OneLine (Json.layout ds k) := by
  unfold Json.layout
  have h1 : ∀ n, OneLine (ds.take n) := fun n => oneLine_sub h fun c hc => List.mem_of_mem_take hc
  have h2 : ∀ n, OneLine (ds.drop n) := fun n => oneLine_sub h fun c hc => List.mem_of_mem_drop hc
  simp only
  split
  · exact oneLine_append.2 ⟨oneLine_append.2 ⟨h, oneLine_replicate _⟩, by unfold OneLine; decide⟩
  · split
    · exact oneLine_append.2 ⟨h1 _, oneLine_cons.2 ⟨by decide, h2 _⟩⟩
    · split
      · exact oneLine_append.2 ⟨oneLine_append.2 ⟨by unfold OneLine; decide, oneLine_replicate _⟩, h⟩
      · split
        · exact oneLine_append.2 ⟨h, oneLine_cons.2 ⟨by decide, oneLine_printInt _⟩⟩
        · exact oneLine_append.2 ⟨h1 _, oneLine_cons.2 ⟨by decide,
            oneLine_append.2 ⟨h2 _, oneLine_cons.2 ⟨by decide, oneLine_printInt _⟩⟩⟩⟩

theorem oneLine_printFloat (d : Double) : OneLine (Json.printFloat d) := by
  unfold Json.printFloat
  refine oneLine_append.2 ⟨?_, ?_⟩
  · split <;> unfold OneLine <;> decide
  · split
    · unfold OneLine; decide
    · exact oneLine_layout (oneLine_natDigits _) _

theorem oneLine_escapeChar (c : Char) : OneLine (Json.escapeChar c) := by
  unfold Json.escapeChar
  split
  · unfold OneLine; decide
  · split
    · unfold OneLine; decide
    · split
      · unfold OneLine; decide
      · split
        · unfold OneLine; decide
        · split
          · unfold OneLine; decide
          · split
            · unfold OneLine; decide
            · split
              · unfold OneLine; decide
              · split
                · rename_i h
                  have key : ∀ n : Fin 32, OneLine ['\\', 'u', '0', '0', Json.hexLower (n.1 / 16), Json.hexLower (n.1 % 16)] := by
                    unfold OneLine; decide
                  exact key ⟨c.toNat, h⟩
                · intro d hd
                  rw [List.mem_singleton.1 hd]
                  omega

theorem oneLine_printStr (s : Str) : OneLine (Json.printStr s) := by
  unfold Json.printStr
  refine oneLine_cons.2 ⟨by decide, oneLine_append.2 ⟨?_, by unfold OneLine; decide⟩⟩
  intro c hc
  obtain ⟨d, -, h⟩ := List.mem_flatMap.1 hc
  exact oneLine_escapeChar d c h

mutual
theorem oneLine_print : ∀ v : Json, OneLine v.print
  | .null => by unfold Json.print OneLine; decide
  | .bool true => by unfold Json.print OneLine; decide
  | .bool false => by unfold Json.print OneLine; decide
  | .num n => by unfold Json.print; exact oneLine_printInt n
  | .float d => by unfold Json.print; exact oneLine_printFloat d
  | .str s => by unfold Json.print; exact oneLine_printStr s
  | .arr [] => by unfold Json.print OneLine; decide
  | .arr (x :: xs) => by
    unfold Json.print
    exact oneLine_cons.2 ⟨by decide, oneLine_append.2 ⟨oneLine_print x, oneLine_printElems xs⟩⟩
  | .obj [] => by unfold Json.print OneLine; decide
  | .obj ((k, v) :: kvs) => by
    unfold Json.print
    exact oneLine_cons.2 ⟨by decide, oneLine_append.2 ⟨oneLine_printStr k, oneLine_cons.2 ⟨by decide,
      oneLine_append.2 ⟨oneLine_print v, oneLine_printMembers kvs⟩⟩⟩⟩
theorem oneLine_printElems : ∀ xs : List Json, OneLine (Json.printElems xs)
  | [] => by unfold Json.printElems OneLine; decide
  | x :: xs => by
    unfold Json.printElems
    exact oneLine_cons.2 ⟨by decide, oneLine_append.2 ⟨oneLine_print x, oneLine_printElems xs⟩⟩
theorem oneLine_printMembers : ∀ kvs : List (Str × Json), OneLine (Json.printMembers kvs)
  | [] => by unfold Json.printMembers OneLine; decide
  | (k, v) :: kvs => by
    unfold Json.printMembers
    exact oneLine_cons.2 ⟨by decide, oneLine_append.2 ⟨oneLine_printStr k, oneLine_cons.2 ⟨by decide,
      oneLine_append.2 ⟨oneLine_print v, oneLine_printMembers kvs⟩⟩⟩⟩
end

/-- C136. The text of every document is one line, whatever strings are in it. -/
theorem C136_document (v : Json) : OneLine v.print := oneLine_print v

/-- C136. So is the text of every result. -/
theorem C136_result {ε T : Type} (information : ε → ErrorInformation) (fT : T → Json) (r : Except ε T) :
    OneLine (resultText information fT r) := oneLine_print _

/-- C136. And the octets of a text have no control characters, not even as parts of other characters. -/
theorem C136_octets (v : Json) : ∀ o ∈ utf8Encode v.print, 0x20 ≤ o.toNat := by
  intro o ho
  obtain ⟨c, hc, h⟩ := List.mem_flatMap.1 ho
  have hl := oneLine_print v c hc
  have hv := c.valid
  have hm : c.toNat < 0x110000 := by
    rcases hv with h | h
    · exact Nat.lt_trans h (by decide)
    · exact h.2
  unfold utf8EncodeChar at h
  simp only at h
  split at h
  · simp only [List.mem_singleton] at h
    subst h
    simp only [UInt8.toNat_ofNat']
    omega
  · split at h
    · simp only [List.mem_cons, List.not_mem_nil, or_false] at h
      rcases h with rfl | rfl <;> simp only [UInt8.toNat_ofNat'] <;> omega
    · split at h
      · simp only [List.mem_cons, List.not_mem_nil, or_false] at h
        rcases h with rfl | rfl | rfl <;> simp only [UInt8.toNat_ofNat'] <;> omega
      · simp only [List.mem_cons, List.not_mem_nil, or_false] at h
        rcases h with rfl | rfl | rfl | rfl <;> simp only [UInt8.toNat_ofNat'] <;> omega

/-- C136. An offer URL is one line if the wallet's endpoint is. -/
theorem C136_url (m : CredentialIssuerMetadata) (cs : CredentialOrIds) (endpoint : Option Str)
    (a : Option AuthorizedCodeFlow) (p : Option PreAuthorizedCodeFlow) (offer : CredentialOffer) (url : Str)
    (h : createOffer m cs endpoint a p = .ok (offer, url)) : OneLine url ↔ ∀ e ∈ endpoint, OneLine e := by
  rw [createOffer_url _ _ _ _ _ _ _ h, oneLine_append, oneLine_append]
  have h1 : OneLine (urlencode offer.ser.print) := by
    intro c hc
    rcases payload_mem (payload_urlencode _) c hc with hu | rfl
    · unfold Unreserved at hu
      simp only [Char.le_def] at hu
      rcases hu with ⟨hu, -⟩ | ⟨hu, -⟩ | ⟨hu, -⟩ | rfl | rfl | rfl | rfl
      · exact Nat.le_trans (by decide) hu
      · exact Nat.le_trans (by decide) hu
      · exact Nat.le_trans (by decide) hu
      · decide
      · decide
      · decide
      · decide
    · decide
  have h2 : OneLine (str! "credential_offer=") := by unfold OneLine; decide
  cases endpoint with
  | none => exact iff_of_true ⟨⟨by unfold OneLine; decide, h2⟩, h1⟩ (by rintro _ ⟨⟩)
  | some e =>
    unfold offerUrlPrefix
    simp only [oneLine_append, Option.mem_def, Option.some.injEq, forall_eq']
    have h3 : OneLine ['?'] := by unfold OneLine; decide
    tauto

theorem stream_inj : ∀ {ts ts' : List Str}, (∀ t ∈ ts, OneLine t) → (∀ t ∈ ts', OneLine t) → stream ts = stream ts' →
    ts = ts' := by
  have head : ∀ {t t' r r' : Str}, OneLine t → OneLine t' → t ++ '\n' :: r = t' ++ '\n' :: r' → t = t' ∧ r = r' := by
    intro t
    induction t with
    | nil =>
      intro t' r r' _ h' e
      cases t' with
      | nil => exact ⟨rfl, by simpa using e⟩
      | cons c t' =>
        simp only [List.nil_append, List.cons_append, List.cons.injEq] at e
        have := h' c (by simp)
        rw [← e.1] at this
        exact absurd this (by decide)
    | cons c t ih =>
      intro t' r r' h h' e
      cases t' with
      | nil =>
        simp only [List.nil_append, List.cons_append, List.cons.injEq] at e
        have := h c (by simp)
        rw [e.1] at this
        exact absurd this (by decide)
      | cons c' t' =>
        simp only [List.cons_append, List.cons.injEq] at e
        obtain ⟨e1, e2⟩ := ih (oneLine_cons.1 h).2 (oneLine_cons.1 h').2 e.2
        exact ⟨by rw [e.1, e1], e2⟩
  intro ts
  induction ts with
  | nil =>
    intro ts' _ _ e
    cases ts' with
    | nil => rfl
    | cons t ts' => simp [stream] at e
  | cons t ts ih =>
    intro ts' h h' e
    cases ts' with
    | nil => simp [stream] at e
    | cons t' ts' =>
      simp only [stream, List.flatMap_cons, List.append_assoc, List.cons_append, List.nil_append] at e
      obtain ⟨e1, e2⟩ := head (h t (by simp)) (h' t' (by simp)) e
      rw [e1, ih (fun t ht => h t (by simp [ht])) (fun t ht => h' t (by simp [ht])) e2]

/-- C136. So documents can be sent line by line: the stream determines them, whatever strings are in them. -/
theorem C136_stream (vs ws : List Json) (hv : ∀ v ∈ vs, RustNumbers v) (hw : ∀ v ∈ ws, RustNumbers v)
    (h : stream (vs.map Json.print) = stream (ws.map Json.print)) : vs = ws := by
  have e := stream_inj (by simp only [List.mem_map]; rintro _ ⟨v, -, rfl⟩; exact oneLine_print v)
    (by simp only [List.mem_map]; rintro _ ⟨v, -, rfl⟩; exact oneLine_print v) h
  clear h
  induction vs generalizing ws with
  | nil => cases ws with
    | nil => rfl
    | cons w ws => cases e
  | cons v vs ih =>
    cases ws with
    | nil => cases e
    | cons w ws =>
      simp only [List.map_cons, List.cons.injEq] at e
      rw [Json.print_injective v w (hv v (by simp)) (hw w (by simp)) e.1,
        ih ws (fun v h => hv v (by simp [h])) (fun v h => hw v (by simp [h])) e.2]

/-- C136. A log of the results of token requests, line by line, determines them all. -/
theorem C136_log (log log' : List (AccessTokenRequest × Option CredentialOffer × Option EvaluateAccessTokenRequestOptions ×
      Except AccessTokenError Unit))
    (ho : ∀ l ∈ log, outcome (AccessToken.evaluateAccessTokenRequest l.1 l.2.1 l.2.2.1) = some l.2.2.2)
    (ho' : ∀ l ∈ log', outcome (AccessToken.evaluateAccessTokenRequest l.1 l.2.1 l.2.2.1) = some l.2.2.2)
    (h : stream (log.map fun l => resultText AccessTokenError.information serUnit l.2.2.2) =
      stream (log'.map fun l => resultText AccessTokenError.information serUnit l.2.2.2)) :
    log.map (·.2.2.2) = log'.map (·.2.2.2) := by
  have e := stream_inj (by simp only [List.mem_map]; rintro _ ⟨v, -, rfl⟩; exact C136_result _ _ _)
    (by simp only [List.mem_map]; rintro _ ⟨v, -, rfl⟩; exact C136_result _ _ _) h
  clear h
  induction log generalizing log' with
  | nil => cases log' with
    | nil => rfl
    | cons w ws => cases e
  | cons v vs ih =>
    cases log' with
    | nil => cases e
    | cons w ws =>
      simp only [List.map_cons, List.cons.injEq] at e ⊢
      exact ⟨C71_token _ _ _ _ _ _ _ _ (ho v (by simp)) (ho' w (by simp)) e.1,
        ih ws (fun v h => ho v (by simp [h])) (fun v h => ho' v (by simp [h])) e.2⟩

/-- C136. A proof JWT as a string is one line if its signature is. -/
theorem C136_jwt (x : Ext) (j : ProofJwt) : OneLine (j.toStr x) ↔ ∀ s ∈ j.signature, OneLine s := by
  unfold ProofJwt.toStr
  have h1 := oneLine_print j.header.ser
  have h2 := oneLine_print (j.body.ser x)
  cases h : j.signature with
  | none => simp [joinWith, oneLine_append, oneLine_cons, h1, h2]
  | some s => simp [joinWith, oneLine_append, oneLine_cons, h1, h2]

/-- C136. The message of an error alone need not be one: it has the id of an unknown credential as it is. -/
theorem C136_message (x : Ext) (id : Str) :
    OneLine ((CredentialIssuerError.credentialIdNotInIssuerMetadata id).description x) ↔ OneLine id := by
  unfold CredentialIssuerError.description
  rw [oneLine_append, oneLine_append]
  have h1 : OneLine (str! "The id `") := by unfold OneLine; decide
  have h2 : OneLine (str! "` does not refer to a credential format inside the issuer metadata") := by
    unfold OneLine; decide
  tauto

namespace Ex

/-- Line breaks in strings are escaped. -/
example : (Json.obj [(str! "a\nb", .str (str! "c\r\n\x00"))]).print = str! "{\"a\\nb\":\"c\\r\\n\\u0000\"}" := by decide +kernel

/-- Two documents are never taken for one, or one for two. -/
example (v : Json) (hv : RustNumbers v) (ws : List Json) (hw : ∀ v ∈ ws, RustNumbers v)
    (h : stream [v.print] = stream (ws.map Json.print)) : ws = [v] :=
  (C136_stream [v] ws (by simpa using hv) hw h).symm

/-- The result of a token request with a wrong PIN. -/
example : resultText AccessTokenError.information serUnit (.error .userPinMismatch) =
    str! "{\"error\":{\"code\":407,\"name\":\"UserPinMismatch\",\"description\":\"Provided user pin does not match user pin from access token request\",\"additional_information\":null}}" := by
  decide +kernel

end Ex
end Oid4vci
