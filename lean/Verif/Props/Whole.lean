import Verif.Lemmas.Seen
import Verif.Lemmas.Blank
import Verif.Props.Spaces

/-!
C151. No document begins with another one: what is read as an offer, a request, a response, metadata or settings is not
if it is cut off or if something other than white space follows.
-/

namespace Oid4vci

open Spec Json

/-- Of a text that is read and anything that follows it, something is read exactly if white space follows, and it is
the same. -/
def Spec.Whole {α : Type} (f : Str → Option α) : Prop :=
  ∀ s t a b, f s = some a → (f (s ++ t) = some b ↔ Ws t ∧ b = a)

/-- An array or an object ends at its bracket, whatever follows. -/
theorem seeValue_whole {σ : Shape} {j : Json} {t : Str} (h : SeenValue σ j t) (hj : ¬ Leaf j) {f d : Nat}
    (hd : depth j ≤ d) (hl : t.length ≤ f) {w : Str} (hw : Ws w) (r : Str) :
    seeValue f d σ (w ++ t ++ r) = some (j, r) := by
  obtain ⟨f, rfl⟩ : ∃ g, f = g + 1 := ⟨f - 1, by
    obtain ⟨c, t', rfl, -⟩ := seenValue_cons h
    simp at hl; omega⟩
  cases h with
  | leaf _ _ _ hlf h => exact absurd hlf hj
  | emptyArray _ w' hw' =>
    rw [List.append_assoc, seeValue, skipWs_append hw]
    obtain ⟨d, rfl⟩ : ∃ g, d = g + 1 := ⟨d - 1, by simp [depth] at hd; omega⟩
    rw [List.cons_append, List.append_assoc, skipWs_cons (by decide)]
    have hs : skipWs (w' ++ ([']'] ++ r)) = ']' :: r := by
      rw [skipWs_append hw']; exact skipWs_cons (by decide)
    simp only [Char.reduceEq, if_true, if_false, hs]
  | array _ τ x xs w' s u hi hw' hx hxs =>
    obtain rfl := item_iff.1 hi
    rw [List.append_assoc, seeValue, skipWs_append hw]
    simp only [depth, depthList] at hd
    simp only [List.length_cons, List.length_append] at hl
    obtain ⟨d, rfl⟩ : ∃ g, d = g + 1 := ⟨d - 1, by omega⟩
    have h1 := (see_complete_aux f d _).1 w' s x (u ++ r) hw' hx (by omega) (by omega) (seenElements_ends hxs r)
    have h2 := (see_complete_aux f d _).2.1 _ u xs r hxs (by omega) (by omega)
    obtain ⟨c, t', rfl, c1, c2, -⟩ := seenValue_cons hx
    rw [List.cons_append, List.append_assoc, skipWs_cons (by decide)]
    have hs : skipWs (w' ++ c :: t' ++ (u ++ r)) = c :: (t' ++ (u ++ r)) := by
      rw [List.append_assoc, skipWs_append hw']; exact skipWs_cons c1
    simp only [Char.reduceEq, if_true, if_false, hs, h1]
    split
    · rename_i heq; simp at heq; exact absurd heq.1 c2
    · simp only [h2, Option.map_some]
  | emptyObject _ w' hw' =>
    rw [List.append_assoc, seeValue, skipWs_append hw]
    obtain ⟨d, rfl⟩ : ∃ g, d = g + 1 := ⟨d - 1, by simp [depth] at hd; omega⟩
    rw [List.cons_append, List.append_assoc, skipWs_cons (by decide)]
    have hs : skipWs (w' ++ (['}'] ++ r)) = '}' :: r := by
      rw [skipWs_append hw']; exact skipWs_cons (by decide)
    simp only [Char.reduceEq, if_true, if_false, hs]
  | object _ k v kvs w' s u hw' hx hxs =>
    rw [List.append_assoc, seeValue, skipWs_append hw]
    simp only [depth, depthMembers] at hd
    simp only [List.length_cons, List.length_append] at hl
    obtain ⟨d, rfl⟩ : ∃ g, d = g + 1 := ⟨d - 1, by omega⟩
    have h1 := (see_complete_aux f d _).2.2.1 w' s k v (u ++ r) hw' hx (by omega) (by omega) (seenMembers_ends hxs r)
    have h2 := (see_complete_aux f d _).2.2.2 u kvs r hxs (by omega) (by omega)
    obtain ⟨t', rfl⟩ := seenMember_cons hx
    rw [List.cons_append, List.append_assoc, skipWs_cons (by decide)]
    have hs : skipWs (w' ++ '"' :: t' ++ (u ++ r)) = '"' :: (t' ++ (u ++ r)) := by
      rw [List.append_assoc, skipWs_append hw']; exact skipWs_cons (by decide)
    simp only [Char.reduceEq, if_true, if_false, hs, h1, h2, Option.map_some]
    rfl

theorem skipWs_nil_iff {s : Str} : skipWs s = [] ↔ Ws s := by
  refine ⟨fun h => ?_, fun h => ?_⟩
  · obtain ⟨w, hw, hs, -⟩ := skipWs_sound s
    rw [h, List.append_nil] at hs
    rwa [hs]
  · have := skipWs_append (s := []) h
    rwa [List.append_nil] at this

/-- What is seen of an array or an object and what follows. -/
theorem see_whole {σ : Shape} {s t : Str} {j : Json} (h : see σ s = some j) (hj : ¬ Leaf j) :
    see σ (s ++ t) = if skipWs t = [] then some j else none := by
  obtain ⟨⟨w, u, w', hw, hu, hw', rfl⟩, hd⟩ := see_sound h
  have h1 := seeValue_whole hu hj (f := 4 * (w ++ u ++ w' ++ t).length + 4) hd
    (by simp only [List.length_append]; omega) hw (w' ++ t)
  rw [← List.append_assoc (w ++ u)] at h1
  unfold see
  rw [h1]
  simp only [skipWs_append hw']

theorem whole_see {α : Type} {σ : Shape} {de : Json → Option α} (hde : ∀ j, Leaf j → de j = none) :
    Whole fun s => (see σ s).bind de := by
  intro s t a b h
  obtain ⟨j, h1, h2⟩ := Option.bind_eq_some_iff.1 h
  have hj : ¬ Leaf j := fun hl => by rw [hde j hl] at h2; cases h2
  show (see σ (s ++ t)).bind de = some b ↔ _
  rw [see_whole h1 hj, ← skipWs_nil_iff]
  by_cases ht : skipWs t = []
  · simp only [ht, if_true, true_and, Option.bind_some, h2, Option.some.injEq]
    exact eq_comm
  · simp [ht]

/-- C151. Offers, requests, responses, metadata, settings, nonces and proofs end where they end. -/
theorem C151_whole (x : Ext) :
    Whole CredentialOffer.fromJson ∧
    Whole AccessTokenRequest.fromJson ∧
    Whole AccessTokenSuccessResponse.fromJson ∧
    Whole CredentialRequest.fromJson ∧
    Whole CredentialSuccessResponse.fromJson ∧
    Whole CredentialIssuerMetadata.fromJson ∧
    Whole (EvaluateCredentialRequestOptions.fromJson x) ∧
    Whole EvaluateAccessTokenRequestOptions.fromJson ∧
    Whole CNonce.fromJson ∧
    Whole AuthorizationServerMetadata.fromJson ∧
    Whole (ProofJwt.fromJson x) ∧
    Whole CredentialFormatProfile.fromJson := by
  refine ⟨whole_see ?_, whole_see ?_, whole_see ?_, whole_see ?_, whole_see ?_, whole_see ?_, whole_see ?_, whole_see ?_,
    whole_see ?_, whole_see ?_, whole_see ?_, ?_⟩
  case refine_12 =>
    have : CredentialFormatProfile.fromJson = fun s => (see .any s).bind (CredentialFormatProfile.de false) := by
      funext s; rw [see_any]; rfl
    rw [this]
    exact whole_see fun j hj => by cases j <;> first | exact hj.elim | rfl
  all_goals
    intro j hj
    cases j <;> first | exact hj.elim | rfl

/-- C151. In particular, a text that is cut off is refused, -/
theorem C151_cut {α : Type} {f : Str → Option α} (hf : Whole f) {s t : Str} {b : α} (h : f (s ++ t) = some b)
    (ht : ¬ Ws t) : f s = none := by
  cases hs : f s with
  | none => rfl
  | some a => exact absurd ((hf s t a b hs).1 h).1 ht

/-- C151. and so is one that runs on. -/
theorem C151_runs_on {α : Type} {f : Str → Option α} (hf : Whole f) {s t : Str} {a : α} (h : f s = some a)
    (ht : ¬ Ws t) : f (s ++ t) = none := by
  cases hs : f (s ++ t) with
  | none => rfl
  | some b => exact absurd ((hf s t a b h).1 hs).1 ht

namespace Ex

/-- C151: a nonce, with white space behind it, -/
example (b : CNonce) : CNonce.fromJson (str! "{\"c_nonce\":\"n\"}" ++ str! "\r\n") = some b ↔
    Ws (str! "\r\n") ∧ b = ⟨str! "n", none⟩ :=
  (C151_whole ext).2.2.2.2.2.2.2.2.1 _ _ _ b (by decide +kernel)

/-- cut off, -/
example : CNonce.fromJson (str! "{\"c_nonce\":\"n\"") = none :=
  C151_cut (C151_whole ext).2.2.2.2.2.2.2.2.1 (t := str! "}") (b := ⟨str! "n", none⟩) (by decide +kernel)
    fun h => by simpa using h '}' (by simp)

/-- and twice. -/
example : CNonce.fromJson (str! "{\"c_nonce\":\"n\"}" ++ str! "{\"c_nonce\":\"n\"}") = none :=
  C151_runs_on (C151_whole ext).2.2.2.2.2.2.2.2.1 (a := ⟨str! "n", none⟩) (by decide +kernel)
    fun h => by simpa using h '{' (by simp)

/-- C151, a document that is a number could be continued: none is. -/
example : ¬ Whole (fun s => (Json.parse s).bind Serde.u32) := fun h => by
  have h1 := (h (str! "1") (str! "2") 1 12 (by decide +kernel)).1 (by decide +kernel)
  exact absurd h1.2 (by decide)

end Ex

end Oid4vci
