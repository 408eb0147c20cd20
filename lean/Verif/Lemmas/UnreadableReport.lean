import Verif.Lemmas.Displayed
import Verif.Lemmas.ReadingTotal
import Verif.Spec.JsonReport

/-! What is reported about a body that goes wrong after a good beginning. -/

namespace Oid4vci
namespace Reading

open Json Serde
open Spec hiding value

variable {α β : Type}

theorem bind_ok {f : Reader α} {g : α → Reader β} {s r : Str} {a : α} (h : got f s = some (a, r)) :
    (f >>= g) s = g a r := by
  have hrun : (f >>= g) s = match f s with
      | (.ok a, r) => g a r
      | (.err m l, r) => (.err m l, r)
      | (.stuck, r) => (.stuck, r) := rfl
  rw [hrun, got_eq_some.1 h]

theorem bind_err {f : Reader α} {g : α → Reader β} {s r m : Str} {l : Option Nat} (h : f s = (.err m l, r)) :
    (f >>= g) s = (.err m l, r) := by
  have hrun : (f >>= g) s = match f s with
      | (.ok a, r) => g a r
      | (.err m l, r) => (.err m l, r)
      | (.stuck, r) => (.stuck, r) := rfl
  rw [hrun, h]

theorem settle_custom {f : Reader α} {s r m : Str} (h : f s = (.err m none, r)) :
    settle f s = (.err m (some r.length), r) := by
  unfold settle
  rw [h]

theorem settle_err {f : Reader α} {s r m : Str} {l : Nat} (h : f s = (.err m (some l), r)) :
    settle f s = (.err m (some l), r) := by
  unfold settle
  rw [h]

/-! ### Values of the wrong type -/

/-- The text of a value in the wrong place, in octets. -/
theorem wrongType_run (T : Texts) (e : Str) {v : Json} {c u r : Str} (hc : Called v c) (hv : ValueText v u)
    (hr : Ends r) : ∃ r', (wrongType T e : Reader α) (wide u ++ r) = (.err (invalidType c e) (some r'.length), r') ∧
      r'.length + readBefore v (wide u) = (wide u ++ r).length := by
  unfold wrongType
  have hid : ∀ (w m r : Str), (do ident w; custom m : Reader α) (w ++ r) = (.err m none, r) := by
    intro w m r
    rw [bind_ok (ident_complete w r)]
    rfl
  cases hc with
  | null =>
    cases hv
    refine ⟨r, settle_custom ?_, by simp [readBefore]; omega⟩
    exact hid (str! "ull") _ _
  | yes =>
    cases hv
    refine ⟨r, settle_custom ?_, by simp [readBefore]; omega⟩
    exact hid (str! "rue") _ _
  | no =>
    cases hv
    refine ⟨r, settle_custom ?_, by simp [readBefore]; omega⟩
    exact hid (str! "alse") _ _
  | integer n s hs =>
    cases hv with
    | integer _ _ hn =>
    refine ⟨r, settle_custom ?_, by simp [readBefore]; omega⟩
    have hp := integerText_iff.1 hs
    rw [wide_eq_self (number_ascii hn)]
    rcases number_complete hn hr with ⟨t', rfl, h⟩ | ⟨c, t', rfl, hd, h⟩
    · rw [List.cons_append, bind_ok (got_peek _)]
      simp only [List.head?_cons]
      rw [if_neg (by decide), if_neg (by decide), if_neg (by decide), if_pos trivial, bind_ok (got_eat _), List.tail_cons,
        bind_ok (by rw [got_number]; exact readNumber_num h)]
      simp [unexpectedNumber, custom, hp]
    · have hd' : ∀ x, isDigit x = false → c ≠ x := by rintro x hx rfl; rw [hx] at hd; cases hd
      rw [bind_ok (got_peek _)]
      simp only [List.head?_cons, List.cons_append]
      rw [if_neg (hd' _ (by decide)), if_neg (hd' _ (by decide)), if_neg (hd' _ (by decide)), if_neg (hd' _ (by decide)),
        if_pos hd, bind_ok (by rw [got_number]; exact readNumber_num h)]
      simp [unexpectedNumber, custom, hp]
  | float n s hs =>
    cases hv with
    | float _ _ hn hread =>
    refine ⟨r, settle_custom ?_, by simp [readBefore]; omega⟩
    have hp := (displayed_iff (ReadAs.isDouble hread)).1 hs
    rw [wide_eq_self (number_ascii hn)]
    rcases number_complete hn hr with ⟨t', rfl, h⟩ | ⟨c, t', rfl, hd, h⟩
    · rw [List.cons_append, bind_ok (got_peek _)]
      simp only [List.head?_cons]
      rw [if_neg (by decide), if_neg (by decide), if_neg (by decide), if_pos trivial, bind_ok (got_eat _), List.tail_cons,
        bind_ok (by rw [got_number]; exact readNumber_float hn hread h)]
      simp [unexpectedNumber, custom, hp]
    · have hd' : ∀ x, isDigit x = false → c ≠ x := by rintro x hx rfl; rw [hx] at hd; cases hd
      rw [bind_ok (got_peek _)]
      simp only [List.head?_cons, List.cons_append]
      rw [if_neg (hd' _ (by decide)), if_neg (hd' _ (by decide)), if_neg (hd' _ (by decide)), if_neg (hd' _ (by decide)),
        if_pos hd, bind_ok (by rw [got_number]; exact readNumber_float hn hread h)]
      simp [unexpectedNumber, custom, hp]
  | array xs =>
    refine ⟨wide u ++ r, settle_custom ?_, by simp [readBefore]⟩
    cases hv <;> (rw [wide_ascii (by decide)]; rfl)
  | object kvs =>
    refine ⟨wide u ++ r, settle_custom ?_, by simp [readBefore]⟩
    cases hv <;> (rw [wide_ascii (by decide)]; rfl)

theorem visitStr_wrong (T : Texts) (e : Str) (visit : Str → Reader α) {v : Json} {c u w r : Str} (hw : Ws w)
    (hc : Called v c) (hv : ValueText v u) (hr : Ends r) :
    ∃ r', visitStr T e visit (w ++ (wide u ++ r)) = (.err (invalidType c e) (some r'.length), r') ∧
      r'.length + readBefore v (wide u) = (wide u ++ r).length := by
  obtain ⟨x, t, ht, h1, -⟩ := val_cons (d := depth v) ⟨u, hv, Nat.le_refl _, rfl⟩
  obtain ⟨r', h, hl⟩ := wrongType_run (α := α) T e hc hv hr
  refine ⟨r', settle_err ?_, hl⟩
  have hx : x ≠ '"' := by
    rintro rfl
    cases hv with
    | null => simp [show wide (str! "null") = str! "null" from rfl] at ht
    | true => simp [show wide (str! "true") = str! "true" from rfl] at ht
    | false => simp [show wide (str! "false") = str! "false" from rfl] at ht
    | integer _ _ hn =>
      rw [wide_eq_self (number_ascii hn)] at ht
      rcases number_complete hn (r := []) (by intro c hc; simp at hc) with ⟨t', rfl, -⟩ | ⟨c, t', rfl, hd, -⟩
      · simp at ht
      · simp only [List.cons.injEq] at ht
        rw [ht.1] at hd
        exact absurd hd (by decide)
    | float _ _ hn _ =>
      rw [wide_eq_self (number_ascii hn)] at ht
      rcases number_complete hn (r := []) (by intro c hc; simp at hc) with ⟨t', rfl, -⟩ | ⟨c, t', rfl, hd, -⟩
      · simp at ht
      · simp only [List.cons.injEq] at ht
        rw [ht.1] at hd
        exact absurd hd (by decide)
    | string => cases hc
    | emptyArray => rw [wide_ascii (by decide)] at ht; simp at ht
    | array => rw [wide_ascii (by decide)] at ht; simp at ht
    | emptyObject => rw [wide_ascii (by decide)] at ht; simp at ht
    | object => rw [wide_ascii (by decide)] at ht; simp at ht
  have hsk : skipWs (w ++ (wide u ++ r)) = wide u ++ r := by
    rw [ht, List.cons_append]; exact skipWs_char hw h1
  rw [bind_ok (got_ws _), hsk, ht, List.cons_append]
  simp only [List.head?_cons]
  rw [if_neg hx, ← List.cons_append, ← ht]
  exact h

theorem option_run {f : Reader Json} {v : Json} {u w r : Str} (hw : Ws w) (hv : ValueText v u) (hn : v ≠ .null) :
    option f (w ++ (wide u ++ r)) = f (wide u ++ r) := by
  obtain ⟨x, t, ht, h1, -⟩ := val_cons (d := depth v) ⟨u, hv, Nat.le_refl _, rfl⟩
  have hsk : skipWs (w ++ (wide u ++ r)) = wide u ++ r := by
    rw [ht, List.cons_append]; exact skipWs_char hw h1
  unfold option
  rw [bind_ok (got_ws _), hsk]
  have hx : (wide u ++ r).head? = some x := by rw [ht]; rfl
  rw [hx]
  refine congrFun (?_ : _ = f) _
  split
  · rename_i e
    cases Option.some.inj e
    exact absurd (val_n (d := depth v) (t := t) ⟨u, hv, Nat.le_refl _, ht.symm⟩) hn
  · rfl

/-! ### The members before -/

/-- The names of known members, in addition to `seen`. -/
def seenAfter (fld : Str → Option (Reader Json)) : List (Str × Json) → List Str → List Str
  | [], seen => seen
  | (k, _) :: kvs, seen => seenAfter fld kvs (if (fld k).isSome then k :: seen else seen)

theorem mem_seenAfter {fld : Str → Option (Reader Json)} {k : Str} : ∀ {kvs : List (Str × Json)} {seen : List Str},
    k ∈ seenAfter fld kvs seen ↔ k ∈ seen ∨ (fld k).isSome ∧ k ∈ kvs.map Prod.fst := by
  intro kvs
  induction kvs with
  | nil => intro seen; simp [seenAfter]
  | cons p kvs ih =>
    intro seen
    obtain ⟨k', v⟩ := p
    unfold seenAfter
    rw [ih]
    by_cases h : (fld k').isSome
    · rw [if_pos h]
      simp only [List.mem_cons, List.map_cons]
      constructor
      · rintro ((rfl | h1) | h1)
        · exact .inr ⟨h, .inl rfl⟩
        · exact .inl h1
        · exact .inr ⟨h1.1, .inr h1.2⟩
      · rintro (h1 | ⟨h1, rfl | h2⟩)
        · exact .inl (.inr h1)
        · exact .inl (.inl rfl)
        · exact .inr ⟨h1, h2⟩
    · rw [if_neg h]
      simp only [List.mem_cons, List.map_cons]
      constructor
      · rintro (h1 | h1)
        · exact .inl h1
        · exact .inr ⟨h1.1, .inr h1.2⟩
      · rintro (h1 | ⟨h1, rfl | h2⟩)
        · exact .inl h1
        · exact absurd h1 h
        · exact .inr ⟨h1, h2⟩

/-- Members and where they leave off: before a first member or not. -/
inductive Lead (R : Str → Json → Str → Prop) : Bool → List (Str × Json) → Str → Bool → Prop
  | nil (b : Bool) : Lead R b [] [] b
  | more (b : Bool) (k : Str) (v : Json) (kvs : List (Str × Json)) (w w' u w1 w2 t rest : Str) (b' : Bool) : Ws w →
      Ws w' → CharsText k u → Ws w1 → Ws w2 → R k v t → Lead R false kvs rest b' →
      Lead R b ((k, v) :: kvs)
        (w ++ (sep b ++ (w' ++ '"' :: (wide u ++ '"' :: (w1 ++ ':' :: (w2 ++ (t ++ rest))))))) b'

theorem lead_ends {R : Str → Json → Str → Prop} {kvs : List (Str × Json)} {t tail : Str} {b' : Bool}
    (h : Lead R false kvs t b') (ht : Ends tail) : Ends (t ++ tail) := by
  cases h with
  | nil => exact ht
  | more _ k v kvs w w' u w1 w2 t rest _ hw =>
    have := ws_ends (c := ',') (t := w' ++ '"' :: (wide u ++ '"' :: (w1 ++ ':' :: (w2 ++ (t ++ rest)))) ++ tail) hw
      (by decide)
    simpa [sep] using this

theorem lead_snoc {R : Str → Json → Str → Prop} {b b' : Bool} {kvs : List (Str × Json)} {lead : Str}
    (h : Lead R b kvs lead b') {k : Str} {v : Json} {w w' u w1 w2 t : Str} (hw : Ws w) (hw' : Ws w')
    (hu : CharsText k u) (hw1 : Ws w1) (hw2 : Ws w2) (hv : R k v t) :
    Lead R b (kvs ++ [(k, v)])
      (lead ++ (w ++ (sep b' ++ (w' ++ '"' :: (wide u ++ '"' :: (w1 ++ ':' :: (w2 ++ t))))))) false := by
  induction h with
  | nil b =>
    have := Lead.more (R := R) b k v [] w w' u w1 w2 t [] false hw hw' hu hw1 hw2 hv (.nil false)
    simpa using this
  | more b k' v' kvs x x' y x1 x2 z rest b' hx hx' hy hx1 hx2 hz _ ih =>
    have := Lead.more (R := R) b k' v' _ x x' y x1 x2 z _ false hx hx' hy hx1 hx2 hz ih
    simpa using this

theorem lead_members {fld : Str → Option (Reader Json)} {other : Reader Json} {R : Str → Json → Str → Prop}
    (hf : ∀ k f, fld k = some f → Reads f (R k)) (ho : ∀ k, fld k = none → Reads other (R k)) {m r tail : Str}
    {l : Option Nat} (hend : Ends tail) : ∀ {b b' : Bool} {kvs : List (Str × Json)} {t : Str}, Lead R b kvs t b' →
    ∀ (n : Nat) (seen : List Str), Fresh fld seen kvs → t.length < n →
      (∀ n', members fld other (n' + 1) b' (seenAfter fld kvs seen) tail = (.err m l, r)) →
      members fld other n b seen (t ++ tail) = (.err m l, r) := by
  intro b b' kvs t hp
  induction hp with
  | nil b =>
    intro n seen _ hlen h
    obtain ⟨n, rfl⟩ : ∃ m, n = m + 1 := ⟨n - 1, by omega⟩
    exact h n
  | more b k v kvs w w' u w1 w2 t rest b' hw hw' hu hw1 hw2 hv hrest ih =>
    intro n seen hfr hlen htail
    obtain ⟨n, rfl⟩ : ∃ m, n = m + 1 := ⟨n - 1, by omega⟩
    simp only [List.length_append, List.length_cons] at hlen
    have h1 := nextKey_some b hw hw' hu (w1 ++ ':' :: (w2 ++ (t ++ (rest ++ tail))))
    have h2 := colon_complete hw1 (w2 ++ (t ++ (rest ++ tail)))
    have e : w ++ (sep b ++ (w' ++ '"' :: (wide u ++ '"' :: (w1 ++ ':' :: (w2 ++ (t ++ rest)))))) ++ tail =
        w ++ (sep b ++ (w' ++ '"' :: (wide u ++ '"' :: (w1 ++ ':' :: (w2 ++ (t ++ (rest ++ tail))))))) := by simp
    have step : ∀ (f : Reader Json) (seen' : List Str), Reads f (R k) → Fresh fld seen' kvs →
        (∀ n', members fld other (n' + 1) b' (seenAfter fld kvs seen') tail = (.err m l, r)) →
        (do
          colon
          let v ← f
          let kvs ← members fld other n false seen'
          pure ((k, v) :: kvs) : Reader (List (Str × Json))) (w1 ++ ':' :: (w2 ++ (t ++ (rest ++ tail)))) =
            (.err m l, r) := by
      intro f seen' hf hfr htail
      have h3 := hf.complete (r := rest ++ tail) hw2 hv (lead_ends hrest hend)
      rw [List.append_assoc] at h3
      rw [bind_ok h2, bind_ok h3, bind_err (ih n seen' hfr (by omega) htail)]
    unfold members
    rw [e, bind_ok h1]
    unfold Fresh at hfr
    unfold seenAfter at htail
    cases hfk : fld k with
    | some f =>
      rw [if_pos (by rw [hfk]; rfl)] at hfr htail
      simp only [hfk]
      rw [if_neg hfr.1]
      exact step f _ (hf k f hfk) hfr.2 htail
    | none =>
      rw [if_neg (by rw [hfk]; simp)] at hfr htail
      simp only [hfk]
      exact step other _ (ho k hfk) hfr htail

/-- The next name is one that has been there. -/
theorem lead_duplicate {fld : Str → Option (Reader Json)} {other : Reader Json} {k u w w' r : Str} {seen : List Str}
    {b : Bool} (n : Nat) (hk : (fld k).isSome) (hs : k ∈ seen) (hw : Ws w) (hw' : Ws w') (hu : CharsText k u) :
    members fld other (n + 1) b seen (w ++ (sep b ++ (w' ++ '"' :: (wide u ++ '"' :: r)))) =
      (.err (duplicateField k) none, r) := by
  unfold members
  rw [bind_ok (nextKey_some b hw hw' hu r)]
  obtain ⟨f, hf⟩ := Option.isSome_iff_exists.1 hk
  simp only [hf]
  rw [if_pos hs]
  rfl

/-- The value of the next member cannot be read. -/
theorem lead_value {fld : Str → Option (Reader Json)} {other : Reader Json} {k u w w' w1 s r m : Str} {seen : List Str}
    {b : Bool} {l : Option Nat} {f : Reader Json} (n : Nat) (hk : fld k = some f) (hs : k ∉ seen) (hw : Ws w) (hw' : Ws w')
    (hu : CharsText k u) (hw1 : Ws w1) (hf : f s = (.err m l, r)) :
    members fld other (n + 1) b seen (w ++ (sep b ++ (w' ++ '"' :: (wide u ++ '"' :: (w1 ++ ':' :: s))))) =
      (.err m l, r) := by
  unfold members
  rw [bind_ok (nextKey_some b hw hw' hu _)]
  simp only [hk]
  rw [if_neg hs, bind_ok (colon_complete hw1 s), bind_err hf]

/-! ### The body -/

theorem body_run {x : Ext} {T : Texts} {w s r m : Str} {l : Option Nat} (hw : Ws w)
    (h : visitMap (bodyField x T) ignored [str! "aud", str! "iat", str! "nonce"] s = (.err m l, r)) :
    ∃ r', document (readBody x T) (w ++ '{' :: s) = (.err m (some (l.getD (endMap r).2.length)), r') := by
  have h1 : (do
      match ← ws with
      | none => ahead eofValue
      | some c =>
        if c = '[' then do
          eat
          let vs ← after (visitSeq (str! "ProofJwtBody") 7 0 ((bodyFields x T).map Prod.snd)) endSeq
          pure (.arr vs)
        else if c = '{' then do
          eat
          let kvs ← after (visitMap (bodyField x T) ignored [str! "aud", str! "iat", str! "nonce"]) endMap
          pure (.obj kvs)
        else wrongType T (str! "struct ProofJwtBody") : Reader Json) (w ++ '{' :: s) = (.err m l, (endMap r).2) := by
    rw [bind_ok (got_ws _), skipWs_char hw (by decide)]
    simp only [List.head?_cons]
    rw [if_neg (by decide), if_pos trivial, bind_ok (got_eat _), List.tail_cons]
    refine bind_err ?_
    unfold after
    rw [h]
  refine ⟨(endMap r).2, ?_⟩
  unfold document readBody
  refine bind_err ?_
  cases l with
  | none => exact settle_custom h1
  | some l => exact settle_err h1

theorem claim_iff {x : Ext} {k : Str} {v : Json} : ClaimValue x k v ↔ Claim x k v := by
  have h1 : (∃ s, IsText v s) ↔ IsStr (fun _ => True) v := by
    unfold IsText IsStr
    simp
  have h2 : (∃ t, IsInstant x v t) ↔ IsStr (fun s => (x.parseTime s).isSome) v := by
    unfold IsInstant IsStr
    simp only [Option.isSome_iff_exists]
    constructor
    · rintro ⟨t, s, rfl, h⟩; exact ⟨s, rfl, t, h⟩
    · rintro ⟨s, rfl, t, h⟩; exact ⟨t, s, rfl, h⟩
  unfold ClaimValue Claim
  rw [h1, h2]
  simp only [List.mem_cons, List.not_mem_nil, or_false]
  constructor
  · rintro ⟨a, b, c, d⟩
    exact ⟨fun e => a (.inl e), fun e => b (.inl e), fun e => a (.inr e), c, fun e => b (.inr e), fun e => d (.inl e),
      fun e => d (.inr e)⟩
  · rintro ⟨a, b, c, d, e, f, g⟩
    exact ⟨fun h => h.elim a c, fun h => h.elim b e, d, fun h => h.elim f g⟩

theorem fresh_snoc {fld : Str → Option (Reader Json)} {k : Str} {v : Json} : ∀ {kvs : List (Str × Json)} {seen : List Str},
    Fresh fld seen kvs → ((fld k).isSome → k ∉ seen ∧ k ∉ kvs.map Prod.fst) → Fresh fld seen (kvs ++ [(k, v)]) := by
  intro kvs
  induction kvs with
  | nil =>
    intro seen _ h
    simp only [List.nil_append]
    unfold Fresh
    split
    · rename_i hk; exact ⟨(h hk).1, trivial⟩
    · trivial
  | cons p kvs ih =>
    obtain ⟨k', v'⟩ := p
    intro seen hf h
    rw [List.cons_append]
    unfold Fresh at hf ⊢
    split at hf
    · rename_i hk'
      refine (if_pos hk').mpr ⟨hf.1, ih hf.2 fun hk => ?_⟩
      have := h hk
      simp only [List.map_cons, List.mem_cons, not_or] at this ⊢
      exact ⟨⟨this.2.1, this.1⟩, this.2.2⟩
    · rename_i hk'
      refine (if_neg hk').mpr (ih hf fun hk => ?_)
      have := h hk
      simp only [List.map_cons, List.mem_cons, not_or] at this
      exact ⟨this.1, this.2.2⟩

theorem bodyStart_lead {x : Ext} (T : Texts) {kvs : List (Str × Json)} {t : Str} (h : BodyStart x kvs t) :
    ∃ w lead w1 w2 b, t = w ++ '{' :: (lead ++ (w1 ++ (sep b ++ w2))) ∧ Ws w ∧ Ws w1 ∧ Ws w2 ∧
      Lead (fun k v t => BodyMember k v t ∧ Claim x k v) true kvs lead b ∧ Fresh (bodyField x T) [] kvs ∧
      (b = true → kvs = []) := by
  induction h with
  | brace w w' hw hw' => exact ⟨w, [], w', [], true, by simp [sep], hw, hw', Ws.nil, .nil true, trivial, fun _ => rfl⟩
  | claim kvs t k v s w w' _ hs hv hk hw hw' ih =>
    obtain ⟨w0, lead, w1, w2, b, rfl, hw0, hw1, hw2, hl, hf, -⟩ := ih
    obtain ⟨u, x1, x2, y, hu, hx1, hx2, hy, rfl⟩ := looseMember_iff.1 hs
    refine ⟨w0, _, w, w', false, ?_, hw0, hw, hw', lead_snoc hl hw1 hw2 hu hx1 hx2 ⟨hy, claim_iff.1 hv⟩,
      fresh_snoc hf (fun h => ⟨by simp, hk (bodyField_isSome.1 h)⟩), by simp⟩
    simp [sep]

theorem start_run {x : Ext} {T : Texts} {kvs : List (Str × Json)} {t tail m r : Str} {l : Option Nat}
    (h : BodyStart x kvs t) (htail : ∀ (n : Nat) (b : Bool) (w w' : Str), Ws w → Ws w' →
      members (bodyField x T) ignored (n + 1) b (seenAfter (bodyField x T) kvs []) (w ++ (sep b ++ (w' ++ '"' :: tail))) =
        (.err m l, r)) :
    ∃ r', document (readBody x T) (t ++ '"' :: tail) = (.err m (some (l.getD (endMap r).2.length)), r') := by
  obtain ⟨w, lead, w1, w2, b, rfl, hw, hw1, hw2, hl, hf, -⟩ := bodyStart_lead T h
  have hend : Ends (w1 ++ (sep b ++ (w2 ++ '"' :: tail))) := by
    cases b with
    | true =>
      have := ws_ends (c := '"') (t := tail) (Ws.append hw1 hw2) (by decide)
      simpa [sep] using this
    | false => exact ws_ends (c := ',') hw1 (by decide)
  have := lead_members (fld := bodyField x T) (other := ignored) (fun k f => body_field) (fun k => body_other) hend hl
    (2 * (lead ++ (w1 ++ (sep b ++ (w2 ++ '"' :: tail)))).length + 2) [] hf (by simp only [List.length_append]; omega)
    (fun n => htail n b w1 w2 hw1 hw2)
  have e : w ++ '{' :: (lead ++ (w1 ++ (sep b ++ w2))) ++ '"' :: tail =
      w ++ '{' :: (lead ++ (w1 ++ (sep b ++ (w2 ++ '"' :: tail)))) := by simp
  rw [e]
  refine body_run hw ?_
  unfold visitMap
  refine bind_err ?_
  exact this

theorem occurrences_count {k : Str} {kvs : List (Str × Json)} :
    (occurrences k kvs).length = (kvs.map Prod.fst).count k := by
  induction kvs with
  | nil => rfl
  | cons p kvs ih =>
    obtain ⟨k', v⟩ := p
    unfold occurrences at ih ⊢
    by_cases h : k' = k
    · subst h; simpa using ih
    · simpa [h] using ih

theorem missing_run {x : Ext} {T : Texts} {kvs : List (Str × Json)} {w t k rest : Str} {before after' : List Str}
    (hw : Ws w) (ht : LooseObject claimNames kvs t) (hv : ∀ p ∈ kvs, ClaimValue x p.1 p.2)
    (hc : ∀ k ∈ claimNames, (kvs.map Prod.fst).count k ≤ 1)
    (hl : [str! "aud", str! "iat", str! "nonce"] = before ++ k :: after')
    (hb : ∀ k' ∈ before, k' ∈ kvs.map Prod.fst) (hk : k ∉ kvs.map Prod.fst) :
    ∃ r', document (readBody x T) (w ++ (t ++ rest)) = (.err (missingField k) (some rest.length), r') := by
  obtain ⟨t', hp, rfl⟩ := looseObject_pairs.1 ht
  have hp' := pairsOf_and.2 ⟨hp, fun p hp => claim_iff.1 (hv p hp)⟩
  have hf : Fresh (bodyField x T) [] kvs := (fresh_iff _ _).2 fun k hk =>
    ⟨by rw [occurrences_count]; exact hc k (bodyField_isSome.1 hk), by simp⟩
  have h1 := members_complete (fld := bodyField x T) (other := ignored) (fun k f => body_field) (fun k => body_other) hp'
    (2 * (t' ++ '}' :: rest).length + 2) [] rest hf (by simp only [List.length_append]; omega)
  have e : w ++ ('{' :: (t' ++ ['}']) ++ rest) = w ++ '{' :: (t' ++ '}' :: rest) := by simp
  rw [e]
  have h2 : visitMap (bodyField x T) ignored [str! "aud", str! "iat", str! "nonce"] (t' ++ '}' :: rest) =
      (.err (missingField k) none, '}' :: rest) := by
    unfold visitMap
    rw [bind_ok (show got (fueled fun n => members (bodyField x T) ignored n true []) _ = _ from h1)]
    have : [str! "aud", str! "iat", str! "nonce"].find? (fun k => !(kvs.map Prod.fst).contains k) = some k := by
      rw [List.find?_eq_some_iff_append]
      refine ⟨by simpa using hk, before, after', hl, fun k' hk' => by simpa using hb k' hk'⟩
    rw [this]
    rfl
  obtain ⟨r', h3⟩ := body_run (T := T) hw h2
  refine ⟨r', ?_⟩
  rw [h3]
  have : endMap ('}' :: rest) = (.ok (), rest) := got_eq_some.1 (endMap_cons rest)
  rw [this]
  rfl

/-- What a report says a claim should have been. -/
def expectedOf (T : Texts) (k : Str) : Str :=
  if k ∈ [str! "iat", str! "nbf", str! "exp"] then T.timeExpected else str! "a string"

theorem field_wrong (x : Ext) (T : Texts) {k : Str} (hk : k ∈ claimNames) {v : Json} {c u w r : Str} (hw : Ws w)
    (hc : Called v c) (hv : ValueText v u) (hr : Ends r)
    (hnull : v = .null → k ∉ [str! "iss", str! "sub", str! "nbf", str! "exp"]) :
    ∃ f r', bodyField x T k = some f ∧
      f (w ++ (wide u ++ r)) = (.err (invalidType c (expectedOf T k)) (some r'.length), r') ∧
      r'.length + readBefore v (wide u) = (wide u ++ r).length := by
  have ht : ∀ w, Ws w → ∃ r', readText T (w ++ (wide u ++ r)) = (.err (invalidType c (str! "a string")) (some r'.length), r') ∧
      r'.length + readBefore v (wide u) = (wide u ++ r).length := fun w hw =>
    visitStr_wrong T _ _ hw hc hv hr
  have hi : ∀ w, Ws w → ∃ r', readTime x T (w ++ (wide u ++ r)) = (.err (invalidType c T.timeExpected) (some r'.length), r') ∧
      r'.length + readBefore v (wide u) = (wide u ++ r).length := fun w hw =>
    visitStr_wrong T _ _ hw hc hv hr
  obtain ⟨r1, a1, a2⟩ := ht w hw
  obtain ⟨r2, b1, b2⟩ := ht [] Ws.nil
  obtain ⟨r3, c1, c2⟩ := hi w hw
  obtain ⟨r4, d1, d2⟩ := hi [] Ws.nil
  have ho : ∀ f : Reader Json, v ≠ .null → option f (w ++ (wide u ++ r)) = f ([] ++ (wide u ++ r)) := fun f hne =>
    option_run hw hv hne
  have hmem : k = str! "iss" ∨ k = str! "aud" ∨ k = str! "sub" ∨ k = str! "iat" ∨ k = str! "nonce" ∨ k = str! "nbf" ∨
      k = str! "exp" := by simpa [claimNames] using hk
  rcases hmem with rfl | rfl | rfl | rfl | rfl | rfl | rfl
  · exact ⟨_, r2, rfl, (ho _ fun e => hnull e (by decide)).trans b1, b2⟩
  · exact ⟨_, r1, rfl, a1, a2⟩
  · exact ⟨_, r2, rfl, (ho _ fun e => hnull e (by decide)).trans b1, b2⟩
  · exact ⟨_, r3, rfl, c1, c2⟩
  · exact ⟨_, r1, rfl, a1, a2⟩
  · exact ⟨_, r4, rfl, (ho _ fun e => hnull e (by decide)).trans d1, d2⟩
  · exact ⟨_, r4, rfl, (ho _ fun e => hnull e (by decide)).trans d1, d2⟩

theorem time_wrong (x : Ext) (T : Texts) {v u w r : Str} (hw : Ws w) (hu : CharsText v u) (hp : x.parseTime v = none) :
    readTime x T (w ++ '"' :: (wide u ++ '"' :: r)) = (.err (T.time v) (some r.length), r) := by
  unfold readTime visitStr
  refine settle_custom ?_
  rw [bind_ok (got_ws _), skipWs_char hw (by decide)]
  simp only [List.head?_cons]
  rw [if_pos trivial, bind_ok (got_eat _), List.tail_cons, bind_ok (string_complete hu r)]
  simp only [hp]
  rfl

theorem field_time (x : Ext) (T : Texts) {k : Str} (hk : k ∈ [str! "iat", str! "nbf", str! "exp"]) {v u w r : Str} (hw : Ws w)
    (hu : CharsText v u) (hp : x.parseTime v = none) :
    ∃ f, bodyField x T k = some f ∧ f (w ++ '"' :: (wide u ++ '"' :: r)) = (.err (T.time v) (some r.length), r) := by
  have h := time_wrong x T (r := r) hw hu hp
  have h' := time_wrong x T (r := r) Ws.nil hu hp
  have ho : option (readTime x T) (w ++ '"' :: (wide u ++ '"' :: r)) = readTime x T ([] ++ '"' :: (wide u ++ '"' :: r)) := by
    have := option_run (f := readTime x T) (r := r) hw (.string v _ ⟨u, hu, rfl⟩) (by simp)
    rw [wide_quoted] at this
    simpa using this
  simp only [List.mem_cons, List.not_mem_nil, or_false] at hk
  rcases hk with rfl | rfl | rfl
  · exact ⟨_, rfl, h⟩
  · exact ⟨_, rfl, ho.trans h'⟩
  · exact ⟨_, rfl, ho.trans h'⟩

end Reading
end Oid4vci
