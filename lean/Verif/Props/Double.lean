import Verif.Lemmas.Reread
import Verif.Props.Text

/-!
C99: double-precision numbers are written as the shortest decimals that denote them.
C100: what is written is read again.
-/

namespace Oid4vci

open Spec Json

/-! ### C99 -/

/-- C99. The text of a number is its sign and the shortest decimal that is rounded to it, laid out with a
decimal point or an exponent. -/
theorem C99_text (d : Double) (hd : IsDouble d.mant d.exp) (s : Str) : (Json.float d).print = s ↔ Shown d s :=
  (shown_iff hd).symm

/-- C99. Every number has such a text, and only one. -/
theorem C99_unique (d : Double) (hd : IsDouble d.mant d.exp) : ∃! s, Shown d s :=
  ⟨_, shown_printFloat hd, fun _ h => ((shown_iff hd).1 h).symm⟩

/-- C99. The text is a JSON number with the sign of `d`, its decimal has at most 17 digits and is rounded
to `d`. -/
theorem C99_denotes (d : Double) (hd : IsDouble d.mant d.exp) :
    NumberText (.float (Json.float d).print) (Json.float d).print ∧
    ((Json.float d).print.head? = some '-' ↔ d.neg = true) ∧
    ∃ i f x, NumberParts (Json.float d).print i f x ∧ RoundsTo (magnitude i f x) d.mant d.exp ∧
      ∃ D : Nat, ∃ k : Int, D < 10 ^ 17 ∧ magnitude i f x = D * 10 ^ k := by
  have hs := shown_printFloat hd
  obtain ⟨h1, h2, i, f, x, hp, hcase⟩ := shown_parts hs
  refine ⟨h1, h2, i, f, x, hp, ?_, ?_⟩
  · obtain ⟨i', f', x', hp', h⟩ := shown_rounds hd hs
    obtain ⟨rfl, rfl, rfl⟩ := parts_unique hp hp'
    exact h
  · unfold magnitude
    rcases hcase with ⟨-, h, -⟩ | ⟨hm, D, k, n, hsh, -, -, -, ⟨c1, -, c3, c4⟩ | ⟨-, c3, c4⟩⟩
    · exact ⟨0, 0, by norm_num, by rw [h]; norm_num⟩
    · refine ⟨D, k, shortest_digits hsh, ?_⟩
      rw [c3, c4]
      push_cast
      have : (10 : ℚ) ^ k = 10 ^ k.toNat := by
        rw [← zpow_natCast, Int.toNat_of_nonneg c1]
      rw [this, pow_succ, zpow_neg_one]
      field_simp
    · exact ⟨D, k, shortest_digits hsh, by rw [c3, c4]⟩

/-- C99. Different numbers have different texts. -/
theorem C99_distinct (d d' : Double) (hd : IsDouble d.mant d.exp) (hd' : IsDouble d'.mant d'.exp)
    (h : (Json.float d).print = (Json.float d').print) : d = d' :=
  shown_injective hd hd' (shown_printFloat hd) ((C99_text d' hd' _).1 h.symm)

namespace Ex
/-- 0.1, whose double is not exactly a tenth. -/
def tenth : Double := ⟨false, 7205759403792794, -56⟩
/-- `2^53 - 1`. -/
def largeOdd : Double := ⟨false, 9007199254740991, 0⟩
end Ex

example : (Json.float Ex.tenth).print = str! "0.1" := by decide +kernel
example : (Json.float ⟨true, 1, -1074⟩).print = str! "-5e-324" := by decide +kernel
example : (Json.float ⟨false, 2 ^ 53 - 1, 971⟩).print = str! "1.7976931348623157e308" := by decide +kernel
example : IsDouble Ex.tenth.mant Ex.tenth.exp := by refine ⟨?_, ?_, ?_, ?_⟩ <;> decide

/-! ### C100 -/

/-- C100 in full: a number is read back from its text as it was. -/
def C100_statement : Prop := ∀ d : Double, IsDouble d.mant d.exp →
  Json.parse (Json.float d).print = some (.float d)

/-- C100 is violated: `9007199254740991.0` is read as `9007199254740990.0`. -/
theorem C100_refuted : ¬ C100_statement := by
  intro h
  have := h Ex.largeOdd (by refine ⟨?_, ?_, ?_, ?_⟩ <;> decide)
  revert this
  decide +kernel

/-- C100, violated also by short decimals: `3e30` is written as such and read as `3.0000000000000003e30`. -/
theorem C100_short_violated : ∃ d d' : Double, IsDouble d.mant d.exp ∧ (Json.float d).print = str! "3e30" ∧
    Json.parse (str! "3e30") = some (.float d') ∧ (Json.float d').print = str! "3.0000000000000003e30" :=
  ⟨⟨false, 5329070518200751, 49⟩, ⟨false, 5329070518200752, 49⟩, by refine ⟨?_, ?_, ?_, ?_⟩ <;> decide,
    by decide +kernel, by decide +kernel, by decide +kernel⟩

/-- C100, partial (exact): a document is read back as it was if and only if it is nested at most 127 deep and
all its numbers survive. Missing: numbers that do not (false, see `C100_refuted`). -/
theorem C100_survives_iff_partial (v : Json) (h : RustNumbers v) :
    Json.parse v.print = some v ↔ depth v ≤ 127 ∧ PlainNumbers v := by
  rw [Json.parse_reread_iff v v h, reread_plain v h, and_comm]
  rfl

/-- C100, partial: the numbers denoted by decimals of up to 15 digits and 22 decimal places survive, and so
do those with up to 22 zeros, except the integers of 16 digits. -/
theorem C100_decimals_partial (D : Nat) (k : Int) (neg : Bool) (m : Nat) (e : Int) (hD : D < 10 ^ 15)
    (h1 : -22 ≤ k) (h2 : k ≤ 22) (h3 : 0 < k → ¬ 10 ∣ D)
    (h4 : ¬ ((10 : ℚ) ^ 15 ≤ D * 10 ^ k ∧ (D : ℚ) * 10 ^ k < 10 ^ 16)) (hr : RoundsTo (D * 10 ^ k) m e) :
    Json.parse (Json.float ⟨neg, m, e⟩).print = some (.float ⟨neg, m, e⟩) :=
  Json.parse_print (.float ⟨neg, m, e⟩) (by
    rw [PlainNumbers]
    exact survives_decimal hD h1 h2 h3 h4 hr) (by simp [depth])

/-- C100, partial: every document nested at most 127 deep is read, whatever its numbers, as a document that
differs only in its double-precision numbers, by at most one part in `2^49`. -/
theorem C100_near_partial (v : Json) (h : RustNumbers v) (hd : depth v ≤ 127) :
    ∃ w, Json.parse v.print = some w ∧ Near v w := by
  obtain ⟨w, h1, h2⟩ := reread_near v h
  exact ⟨w, (Json.parse_reread v h hd).trans h1, h2⟩

/-- C65. Every document, whatever its double-precision numbers, is written as a JSON text (of a document that
differs at most in these, see C100). -/
theorem C65_printed_any (v : Json) (h : RustNumbers v) (hd : depth v ≤ 127) :
    ∃ w, JsonText w v.print ∧ Near v w := by
  obtain ⟨w, hw, hn⟩ := C100_near_partial v h hd
  exact ⟨w, ((C65_grammar _ _).1 hw).1, hn⟩

/-- The hypotheses can be met: `0.1` is such a decimal. -/
example : Json.parse (Json.float Ex.tenth).print = some (.float Ex.tenth) :=
  C100_decimals_partial 1 (-1) false _ _ (by norm_num) (by norm_num) (by norm_num) (by norm_num) (by norm_num)
    ((denotes_iff (by norm_num)).1 (by decide +kernel))

/-- The hypotheses of C99 at a tenth. -/
example : Shown Ex.tenth (str! "0.1") :=
  (C99_text _ (by refine ⟨?_, ?_, ?_, ?_⟩ <;> decide) _).1 (by decide +kernel)
example : ∃! s, Shown Ex.tenth s := C99_unique _ (by refine ⟨?_, ?_, ?_, ?_⟩ <;> decide)
example : ∃ i f x, NumberParts (Json.float Ex.tenth).print i f x ∧
    RoundsTo (magnitude i f x) Ex.tenth.mant Ex.tenth.exp := by
  obtain ⟨-, -, i, f, x, h1, h2, -⟩ := C99_denotes Ex.tenth (by refine ⟨?_, ?_, ?_, ?_⟩ <;> decide)
  exact ⟨i, f, x, h1, h2⟩
example : (Json.float Ex.tenth).print ≠ (Json.float ⟨false, 7205759403792795, -56⟩).print := fun h =>
  absurd (C99_distinct _ _ (by refine ⟨?_, ?_, ?_, ?_⟩ <;> decide) (by refine ⟨?_, ?_, ?_, ?_⟩ <;> decide) h)
    (by decide)
/-- A document with a number that does not survive. -/
example : ¬ PlainNumbers (.arr [.float Ex.largeOdd]) := fun h =>
  absurd ((C100_survives_iff_partial (.arr [.float Ex.largeOdd])
    ⟨by refine ⟨?_, ?_, ?_, ?_⟩ <;> decide, trivial⟩).2 ⟨by decide, h⟩) (by decide +kernel)

end Oid4vci
