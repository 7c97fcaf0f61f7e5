import Verif.Lemmas.DecimalRound
import Verif.Props.C41

/-!
# C51: what the number formats keep

A table is written with 13 significant digits (the data), 7 decimals (AW), 6 decimals (atomic weight ratio)
and 5 significant digits (temperature). Reading a written table and writing it again gives the same text;
the first reading changes a value by a known amount at most; integers up to 13 digits do not change at all.
The conversions are those of `Decimal.std`.
-/

namespace ACE.Props
open ACE ACE.Text ACE.Decimal

/-- The exact value of a finite double. -/
def realOf : Dbl → ℚ
  | .fin neg m e => (if neg then -1 else 1) * (m * (2 : ℚ) ^ e)
  | _ => 0

/-- Zero (of either sign) and the normal doubles. -/
def IsNormal : Dbl → Prop
  | .fin _ m e => m = 0 ∨ (2 : ℚ) ^ (-1022 : Int) ≤ m * 2 ^ e ∧ (m : ℚ) * 2 ^ e < 2 ^ (1024 : Int)
  | _ => False

/-- The sign bit. -/
def signOf : Dbl → Bool
  | .fin neg _ _ => neg
  | .inf neg => neg
  | .nan => false

namespace C51

theorem real_sub (neg : Bool) (a b : ℚ) :
    |(if neg then -1 else 1) * a - (if neg then -1 else 1) * b| = |a - b| := by
  rw [← mul_sub, abs_mul]
  cases neg <;> simp

theorem real_abs (neg : Bool) (m : Nat) (e : Int) : |realOf (.fin neg m e)| = m * 2 ^ e := by
  have : (0 : ℚ) ≤ m * 2 ^ e := mul_nonneg (Nat.cast_nonneg m) (pow2_pos e).le
  unfold realOf
  rw [abs_mul, abs_of_nonneg this]
  cases neg <;> simp

/-- Scientific numbers. -/
theorem sci_word (p w : Nat) (hp1 : 1 ≤ p) (hp2 : p ≤ 13) (hw : p + 8 ≤ w) (x : Dbl) (hx : IsNormal x) :
    ∃ y, Written std w (std.sci 'E' p x) y ∧ |realOf y - realOf x| ≤ (10 : ℚ)⁻¹ ^ p * |realOf x| ∧
      signOf y = signOf x ∧ std.sci 'E' p y = std.sci 'E' p x := by
  cases x with
  | inf s => exact hx.elim
  | nan => exact hx.elim
  | fin neg m e =>
    obtain ⟨m', e', h1, h2, h3⟩ := sci_round p hp1 hp2 neg m e
    refine ⟨.fin neg m' e', ⟨?_, ?_, ?_, ?_⟩, ?_, rfl, ?_⟩
    · show sci 'E' p (.fin neg m e) ≠ []
      rw [sci_fin]
      intro h
      have := sciText_length 'E' p neg (significant p m e).1 (significant p m e).2
      rw [h] at this
      simp only [List.length_nil] at this
      omega
    · show (sci 'E' p (.fin neg m e)).length ≤ w
      rw [sci_fin, sciText_length, sign_length]
      have := exponentText_length _ (significant_exponent p m e hx)
      split <;> omega
    · show ∀ c ∈ sci 'E' p (.fin neg m e), isReal c = true
      rw [sci_fin]
      exact sciText_real _ _ _ _
    · show value (sci 'E' p (.fin neg m e)) = _
      rw [sci_fin, sciText_value _ _ _ _ _ (by decide) (significant_lt p m e), h1]
    · rw [real_abs]
      unfold realOf
      rw [real_sub]
      exact h2
    · show sci 'E' p (.fin neg m' e') = sci 'E' p (.fin neg m e)
      rw [sci_fin, sci_fin, h3]

/-- Numbers with a decimal point. -/
theorem fixed_word (p k w : Nat) (hk : 1 ≤ k) (hw : k + 1 + p ≤ w) (hb : 10 ^ (k + p) ≤ 2 ^ 52) (x : Dbl)
    (hs : signOf x = false) (hx : IsNormal x) (hm : realOf x ≤ (10 ^ k - 1 : Nat)) :
    ∃ y, Written std w (std.fixed p x) y ∧ |realOf y - realOf x| ≤ (10 : ℚ)⁻¹ ^ p ∧
      signOf y = false ∧ std.fixed p y = std.fixed p x := by
  cases x with
  | inf s => exact hx.elim
  | nan => exact hx.elim
  | fin neg m e =>
    obtain rfl : neg = false := hs
    have hm' : (m : ℚ) * 2 ^ e ≤ (10 ^ k - 1 : Nat) := by simpa [realOf] using hm
    have hd := decimals_le p m _ e hm'
    have hlt : decimals p m e < 10 ^ (k + p) := by
      have h1 : (10 ^ k - 1) * 10 ^ p + 10 ^ p = 10 ^ (k + p) := by
        have : 0 < 10 ^ k := Nat.pow_pos (by decide)
        rw [Nat.pow_add, Nat.sub_mul, Nat.one_mul]
        have : 1 * 10 ^ p ≤ 10 ^ k * 10 ^ p := Nat.mul_le_mul_right _ this
        omega
      have : 0 < 10 ^ p := Nat.pow_pos (by decide)
      omega
    obtain ⟨m', e', h1, h2, h3⟩ := fixed_round p false m e (by omega)
    have hl := fixedText_length p false _ k hk hlt
    refine ⟨.fin false m' e', ⟨?_, ?_, ?_, ?_⟩, ?_, rfl, ?_⟩
    · show fixed p (.fin false m e) ≠ []
      rw [fixed_fin]
      simp [fixedText]
    · show (fixed p (.fin false m e)).length ≤ w
      rw [fixed_fin]
      rw [sign_length] at hl
      simp only [Bool.false_eq_true, if_false] at hl
      omega
    · show ∀ c ∈ fixed p (.fin false m e), isReal c = true
      rw [fixed_fin]
      exact fixedText_real _ _ _
    · show value (fixed p (.fin false m e)) = _
      rw [fixed_fin, fixedText_value, h1]
    · unfold realOf
      rw [real_sub]
      exact h2
    · show fixed p (.fin false m' e') = fixed p (.fin false m e)
      rw [fixed_fin, fixed_fin, h3]

end C51

/-- Every zero or normal double of the data is printed in its 20 columns, is read with a relative error of at
most 10⁻¹² and the same sign, and is printed again as the same text. -/
theorem C51_word (x : Dbl) (hx : IsNormal x) :
    ∃ y, Written std 20 (std.sci 'E' 12 x) y ∧ |realOf y - realOf x| ≤ (10 : ℚ)⁻¹ ^ 12 * |realOf x| ∧
      signOf y = signOf x ∧ std.sci 'E' 12 y = std.sci 'E' 12 x :=
  C51.sci_word 12 20 (by decide) (by decide) (by decide) x hx

/-- The same for a temperature: 12 columns, 5 significant digits. -/
theorem C51_temperature (x : Dbl) (hx : IsNormal x) :
    ∃ y, Written std 12 (std.sci 'E' 4 x) y ∧ |realOf y - realOf x| ≤ (10 : ℚ)⁻¹ ^ 4 * |realOf x| ∧
      signOf y = signOf x ∧ std.sci 'E' 4 y = std.sci 'E' 4 x :=
  C51.sci_word 4 12 (by decide) (by decide) (by decide) x hx

/-- An atomic weight ratio up to 99999 is printed in its 12 columns with an error of at most 10⁻⁶. -/
theorem C51_awr (x : Dbl) (hs : signOf x = false) (hx : IsNormal x) (hm : realOf x ≤ 99999) :
    ∃ y, Written std 12 (std.fixed 6 x) y ∧ |realOf y - realOf x| ≤ (10 : ℚ)⁻¹ ^ 6 ∧
      signOf y = false ∧ std.fixed 6 y = std.fixed 6 x :=
  C51.fixed_word 6 5 12 (by decide) (by decide) (by decide) x hs hx (by
    rw [show ((10 ^ 5 - 1 : Nat) : ℚ) = 99999 by norm_num]; exact hm)

/-- A value of AW up to 999 is printed in its 11 columns with an error of at most 10⁻⁷. -/
theorem C51_aw (x : Dbl) (hs : signOf x = false) (hx : IsNormal x) (hm : realOf x ≤ 999) :
    ∃ y, Written std 11 (std.fixed 7 x) y ∧ |realOf y - realOf x| ≤ (10 : ℚ)⁻¹ ^ 7 ∧
      signOf y = false ∧ std.fixed 7 y = std.fixed 7 x :=
  C51.fixed_word 7 3 11 (by decide) (by decide) (by decide) x hs hx (by
    rw [show ((10 ^ 3 - 1 : Nat) : ℚ) = 999 by norm_num]; exact hm)

/-- Integers with up to 13 digits (counts, locators, reaction numbers) are the same after a file. -/
theorem C51_integer (i : Int) (h : i.natAbs < 10 ^ 13) :
    Written std 20 (std.sci 'E' 12 (Dbl.ofInt i)) (Dbl.ofInt i) := by
  have hx : IsNormal (Dbl.ofInt i) := by
    unfold Dbl.ofInt IsNormal
    by_cases h0 : i.natAbs = 0
    · exact .inl h0
    · have h1 : (1 : ℚ) ≤ i.natAbs := by exact_mod_cast Nat.pos_of_ne_zero h0
      have h2 : (i.natAbs : ℚ) < 10 ^ 13 := by exact_mod_cast h
      have h3 : (2 : ℚ) ^ (-1022 : Int) ≤ 2 ^ (0 : Int) := zpow_le_zpow_right₀ (by norm_num) (by norm_num)
      have h4 : (2 : ℚ) ^ (44 : Int) ≤ 2 ^ (1024 : Int) := zpow_le_zpow_right₀ (by norm_num) (by norm_num)
      refine .inr ⟨?_, ?_⟩
      · rw [zpow_zero] at h3 ⊢; linarith
      · rw [zpow_zero, mul_one]
        refine lt_of_lt_of_le (lt_trans h2 ?_) h4
        norm_num
  obtain ⟨y, hy, -⟩ := C51_word _ hx
  have : y = Dbl.ofInt i := by
    have h1 := hy.value
    have h2 : std.value (std.sci 'E' 12 (Dbl.ofInt i)) = some (Dbl.ofInt i) := by
      show value (sci 'E' 12 (.fin _ _ _)) = _
      rw [sci_fin, sciText_value _ _ _ _ _ (by decide) (significant_lt _ _ _),
        sci_int 12 _ _ h (lt_trans h (by decide))]
      rfl
    rw [h2] at h1
    exact (Option.some.inj h1).symm
  rwa [this] at hy

/-! ## Tables -/

/-- The numbers of a table body fit their columns. -/
structure BodyPrintable (d : TableData) : Prop where
  sized : d.Sized
  iz : ∀ i ∈ d.iz, FitsField 7 i
  aw : ∀ x ∈ d.aw, signOf x = false ∧ IsNormal x ∧ realOf x ≤ 999
  nxs : ∀ i ∈ d.nxs, FitsField 9 i
  jxs : ∀ i ∈ d.jxs, FitsField 9 i
  length : FitsField 9 (d.xss.length : Int)
  xss : ∀ x ∈ d.xss, IsNormal x
  first : d.NXS 1 = .ok (d.xss.length : Int)

/-- The numbers of a header fit their columns. -/
structure NumbersPrintable (awr temp : Dbl) : Prop where
  awr : signOf awr = false ∧ IsNormal awr ∧ realOf awr ≤ 99999
  temp : signOf temp = false ∧ IsNormal temp

/-- A table whose strings and numbers fit their columns. -/
inductive Printable : Table → Prop where
  | v1 (h : Header) (d : TableData) (hf : HeaderFits h) (hn : NumbersPrintable h.awr h.temp) (hz : h.zaid ≠ [])
      (h0 : ¬ "2.0.0".toList <+: h.zaid) (h1 : ¬ "2.0.1".toList <+: h.zaid) (hd : BodyPrintable d) :
      Printable ⟨.v1 h, d⟩
  | v2 (h : Header201) (d : TableData) (hf : Header201Fits h) (hn : NumbersPrintable h.awr h.temp)
      (hd : BodyPrintable d) : Printable ⟨.v2 h, d⟩

/-- The integers of a body are the same and the numbers are close. -/
structure BodyClose (d d' : TableData) : Prop where
  iz : d'.iz = d.iz
  nxs : d'.nxs = d.nxs
  jxs : d'.jxs = d.jxs
  aw : List.Forall₂ (fun x y => |realOf y - realOf x| ≤ (10 : ℚ)⁻¹ ^ 7) d.aw d'.aw
  xss : List.Forall₂ (fun x y => |realOf y - realOf x| ≤ (10 : ℚ)⁻¹ ^ 12 * |realOf x|) d.xss d'.xss

/-- The numbers of a header are close. -/
structure NumbersClose (awr temp awr' temp' : Dbl) : Prop where
  awr : |realOf awr' - realOf awr| ≤ (10 : ℚ)⁻¹ ^ 6
  temp : |realOf temp' - realOf temp| ≤ (10 : ℚ)⁻¹ ^ 4 * |realOf temp|

/-- The strings and integers of a table are the same and the numbers are close. -/
inductive TableClose : Table → Table → Prop where
  | v1 (h : Header) (d d' : TableData) (awr temp : Dbl) (hn : NumbersClose h.awr h.temp awr temp)
      (hd : BodyClose d d') : TableClose ⟨.v1 h, d⟩ ⟨.v1 { h with awr := awr, temp := temp }, d'⟩
  | v2 (h : Header201) (d d' : TableData) (awr temp : Dbl) (hn : NumbersClose h.awr h.temp awr temp)
      (hd : BodyClose d d') : TableClose ⟨.v2 h, d⟩ ⟨.v2 { h with awr := awr, temp := temp }, d'⟩

namespace C51

theorem choose_list {P : Dbl → Dbl → Prop} : ∀ l : Words, (∀ x ∈ l, ∃ y, P x y) → ∃ l', List.Forall₂ P l l'
  | [], _ => ⟨[], .nil⟩
  | x :: l, h => by
      obtain ⟨y, hy⟩ := h x (by simp)
      obtain ⟨l', hl⟩ := choose_list l fun x hx => h x (by simp [hx])
      exact ⟨y :: l', .cons hy hl⟩

theorem zip_of {P : Dbl → Dbl → Prop} {l l' : Words} (h : List.Forall₂ P l l') : ∀ p ∈ l.zip l', P p.1 p.2 := by
  induction h with
  | nil => intro p hp; cases hp
  | cons h _ ih =>
    intro p hp
    rw [List.zip_cons_cons, List.mem_cons] at hp
    rcases hp with rfl | hp
    · exact h
    · exact ih p hp

theorem map_of {β : Type} {f : Dbl → β} {l l' : Words} (h : List.Forall₂ (fun x y => f y = f x) l l') :
    l'.map f = l.map f := by
  induction h with
  | nil => rfl
  | cons h _ ih => rw [List.map_cons, List.map_cons, h, ih]

theorem zip_map_of {β γ : Type} {f : Dbl → β} (g : Int → β → γ) {l l' : Words}
    (h : List.Forall₂ (fun x y => f y = f x) l l') :
    ∀ iz : List Int, (iz.zip l').map (fun p => g p.1 (f p.2)) = (iz.zip l).map (fun p => g p.1 (f p.2)) := by
  induction h with
  | nil => intro iz; rfl
  | cons h _ ih =>
    intro iz
    cases iz with
    | nil => rfl
    | cons i iz => rw [List.zip_cons_cons, List.zip_cons_cons, List.map_cons, List.map_cons, ih iz, h]

/-- A body is read and printed again as the same text. -/
theorem body (d : TableData) (h : BodyPrintable d) :
    ∃ aw xss, DataFits std d aw xss ∧ BodyClose d { d with aw := aw, xss := xss } ∧
      dataText std { d with aw := aw, xss := xss } = dataText std d ∧ TableData.Sized { d with aw := aw, xss := xss } := by
  obtain ⟨aw, ha⟩ := choose_list d.aw fun x hx => C51_aw x (h.aw x hx).1 (h.aw x hx).2.1 (h.aw x hx).2.2
  obtain ⟨xss, hx⟩ := choose_list d.xss fun x hx => C51_word x (h.xss x hx)
  have la : aw.length = 16 := by rw [← ha.length_eq]; exact h.sized.aw
  have lx : xss.length = d.xss.length := hx.length_eq.symm
  refine ⟨aw, xss, ⟨h.sized, h.iz, ⟨la, fun p hp => (zip_of ha p hp).1⟩, h.nxs, h.jxs, h.length,
    ⟨lx, fun p hp => (zip_of hx p hp).1⟩⟩, ⟨rfl, rfl, rfl, ha.imp fun _ _ q => q.2.1, hx.imp fun _ _ q => q.2.1⟩, ?_, ?_⟩
  · have m1 := zip_map_of (fun i t => rightIn 7 (Text.ofInt i) ++ rightIn 11 t) (ha.imp fun _ _ q => q.2.2.2) d.iz
    have m2 := map_of (f := fun x => rightIn 20 (std.sci 'E' 12 x)) (hx.imp fun _ _ q => by simp only [q.2.2.2])
    unfold dataText
    simp only [lx]
    rw [m1, m2]
  · exact ⟨h.sized.iz, la, h.sized.nxs, h.sized.jxs⟩

end C51

/-- A table is printed, read from the printed form (whatever follows it) as a table with the same strings and
integers and close numbers, and this table is printed as the same text. -/
theorem C51_table (t : Table) (h : Printable t) :
    ∃ text t', t.print std = .ok text ∧ (∀ rest, Table.parse std (text ++ rest) = .ok (t', rest)) ∧
      t'.print std = .ok text ∧ TableClose t t' := by
  cases h with
  | v1 h d hf hn hz h0 h1 hd =>
    obtain ⟨aw, xss, fits, close, same, sized⟩ := C51.body d hd
    obtain ⟨awr, ha, ha2, ha3, ha4⟩ := C51_awr h.awr hn.awr.1 hn.awr.2.1 hn.awr.2.2
    obtain ⟨temp, ht, ht2, ht3, ht4⟩ := C51_temperature h.temp hn.temp.2
    have pa : awr.isNeg = false := by cases awr <;> simp_all [signOf, Dbl.isNeg]
    have pt : temp.isNeg = false := by
      rw [hn.temp.1] at ht3
      cases temp <;> simp_all [signOf, Dbl.isNeg]
    have tf := TableFits.v1 h d awr temp aw xss hf fits hd.first ha ht pa pt hz h0 h1
    have hp : Table.print std ⟨.v1 h, d⟩ = .ok (headerText std h ++ dataText std d) := by
      unfold Table.print AnyHeader.print
      simp only
      rw [C38_printed std h hf, ok_bind, C40_printed std d hd.sized, ok_bind]
      rfl
    refine ⟨_, _, hp, ?_, ?_, .v1 h d _ awr temp ⟨ha2, ht2⟩ close⟩
    · intro rest
      obtain ⟨text, h2, h3⟩ := C41_table std _ _ tf rest
      rw [Except.ok.inj (hp.symm.trans h2)]
      exact h3
    · have hf' : HeaderFits { h with awr := awr, temp := temp } :=
        ⟨hf.zaid, hf.date, hf.title, hf.material, hf.trim, hf.lines⟩
      unfold Table.print AnyHeader.print
      simp only
      rw [C38_printed std _ hf', ok_bind, C40_printed std _ sized, ok_bind, same]
      unfold headerText
      simp only [ha4, ht4]
      rfl
  | v2 h d hf hn hd =>
    obtain ⟨aw, xss, fits, close, same, sized⟩ := C51.body d hd
    obtain ⟨awr, ha, ha2, ha3, ha4⟩ := C51_awr h.awr hn.awr.1 hn.awr.2.1 hn.awr.2.2
    obtain ⟨temp, ht, ht2, ht3, ht4⟩ := C51_temperature h.temp hn.temp.2
    have pa : awr.isNeg = false := by cases awr <;> simp_all [signOf, Dbl.isNeg]
    have pt : temp.isNeg = false := by
      rw [hn.temp.1] at ht3
      cases temp <;> simp_all [signOf, Dbl.isNeg]
    have tf := TableFits.v2 h d awr temp aw xss hf fits hd.first ha ht pa pt
    have hp : Table.print std ⟨.v2 h, d⟩ = .ok (header201Text std h ++ dataText std d) := by
      unfold Table.print AnyHeader.print
      simp only
      rw [C39_printed std h hf, ok_bind, C40_printed std d hd.sized, ok_bind]
      rfl
    refine ⟨_, _, hp, ?_, ?_, .v2 h d _ awr temp ⟨ha2, ht2⟩ close⟩
    · intro rest
      obtain ⟨text, h2, h3⟩ := C41_table std _ _ tf rest
      rw [Except.ok.inj (hp.symm.trans h2)]
      exact h3
    · have hf' : Header201Fits { h with awr := awr, temp := temp } :=
        ⟨hf.version, hf.szaid, hf.source, hf.trim, hf.lines, hf.date, hf.comments, hf.number⟩
      unfold Table.print AnyHeader.print
      simp only
      rw [C39_printed std _ hf', ok_bind, C40_printed std _ sized, ok_bind, same]
      unfold header201Text
      simp only [ha4, ht4]
      rfl

/-- A table whose data are integers with up to 13 digits, and whose other numbers are zero, is returned
exactly. -/
theorem C51_integers (d : TableData) (hs : d.Sized) (hi : ∀ i ∈ d.iz, FitsField 7 i)
    (hw : ∀ x ∈ d.aw, x = Dbl.ofNat 0) (hn : ∀ i ∈ d.nxs, FitsField 9 i) (hj : ∀ i ∈ d.jxs, FitsField 9 i)
    (hl : FitsField 9 (d.xss.length : Int)) (h1 : d.NXS 1 = .ok (d.xss.length : Int))
    (hx : ∀ x ∈ d.xss, ∃ i : Int, x = Dbl.ofInt i ∧ i.natAbs < 10 ^ 13) (rest : Str) :
    ∃ text, d.print std = .ok text ∧ TableData.parse std (text ++ rest) = .ok (d, rest) := by
  refine C40_exact std d ⟨hs, hi, ⟨hs.aw, ?_⟩, hn, hj, hl, ⟨rfl, ?_⟩⟩ h1 rest
  · have h0 : Written std 11 (std.fixed 7 (Dbl.ofNat 0)) (Dbl.ofNat 0) :=
      ⟨by decide +kernel, by decide +kernel, by decide +kernel, by decide +kernel⟩
    intro p hp
    have a := List.of_mem_zip hp
    rw [hw _ a.1, hw _ a.2]
    exact h0
  · intro p hp
    have : ∀ (l : Words) (p : Dbl × Dbl), p ∈ l.zip l → p.1 ∈ l ∧ p.2 = p.1 := by
      intro l
      induction l with
      | nil => intro p hp; cases hp
      | cons a l ih =>
        intro p hp
        rw [List.zip_cons_cons, List.mem_cons] at hp
        rcases hp with rfl | hp
        · exact ⟨by simp, rfl⟩
        · exact ⟨by simp [(ih p hp).1], (ih p hp).2⟩
    obtain ⟨m1, m2⟩ := this _ _ hp
    obtain ⟨i, hi, hi2⟩ := hx _ m1
    rw [m2, hi]
    exact C51_integer i hi2

/-! ## Examples -/

namespace C51

theorem normal_of (neg : Bool) (m : Nat) (e : Int) (hm : m < 2 ^ 64) (h1 : -500 ≤ e) (h2 : e ≤ 500) :
    IsNormal (.fin neg m e) := by
  by_cases h0 : m = 0
  · exact .inl h0
  · have a : (1 : ℚ) ≤ m := by exact_mod_cast Nat.pos_of_ne_zero h0
    have b : (m : ℚ) ≤ 2 ^ (64 : Int) := by
      have : m ≤ 2 ^ 64 := hm.le
      have : (m : ℚ) ≤ 2 ^ 64 := by exact_mod_cast this
      exact this
    have c : (2 : ℚ) ^ (-1022 : Int) ≤ 2 ^ e := zpow_le_zpow_right₀ (by norm_num) (by omega)
    have d : (2 : ℚ) ^ ((64 : Int) + e) < 2 ^ (1024 : Int) := zpow_lt_zpow_right₀ (by norm_num) (by omega)
    have p := pow2_pos e
    refine .inr ⟨by nlinarith, ?_⟩
    rw [zpow_add₀ (by norm_num)] at d
    exact lt_of_le_of_lt (mul_le_mul_of_nonneg_right b p.le) d

theorem exBody_printable : BodyPrintable exBody where
  sized := exBody_fits.sized
  iz := exBody_fits.iz
  aw := by
    intro x hx
    have : x = Dbl.ofNat 1 ∨ x = Dbl.ofNat 0 := by
      rcases List.mem_cons.mp hx with h | h
      · exact .inl h
      · exact .inr (List.eq_of_mem_replicate h)
    rcases this with rfl | rfl
    · exact ⟨rfl, normal_of _ _ _ (by decide) (by decide) (by decide), by norm_num [realOf, Dbl.ofNat, Dbl.ofInt]⟩
    · exact ⟨rfl, normal_of _ _ _ (by decide) (by decide) (by decide), by norm_num [realOf, Dbl.ofNat, Dbl.ofInt]⟩
  nxs := exBody_fits.nxs
  jxs := exBody_fits.jxs
  length := exBody_fits.length
  xss := by
    intro x hx
    simp only [exBody, List.mem_cons, List.not_mem_nil, or_false] at hx
    rcases hx with rfl | rfl | rfl | rfl | rfl <;> exact normal_of _ _ _ (by decide) (by decide) (by decide)
  first := by decide +kernel

theorem exNumbers : NumbersPrintable exAwr exTemp where
  awr := ⟨rfl, normal_of _ _ _ (by decide) (by decide) (by decide), by norm_num [realOf, exAwr]⟩
  temp := ⟨rfl, normal_of _ _ _ (by decide) (by decide) (by decide)⟩

theorem exTable1_printable : Printable exTable1 :=
  .v1 exHeader exBody exHeader_fits exNumbers (by decide +kernel) (by decide +kernel) (by decide +kernel)
    exBody_printable

theorem exTable2_printable : Printable exTable2 := .v2 _ exBody exHeader201_fits exNumbers exBody_printable

end C51

example : ∃ text t', exTable1.print std = .ok text ∧
    (∀ rest, Table.parse std (text ++ rest) = .ok (t', rest)) ∧ t'.print std = .ok text ∧ TableClose exTable1 t' :=
  C51_table _ C51.exTable1_printable

example : ∃ text t', exTable2.print std = .ok text ∧
    (∀ rest, Table.parse std (text ++ rest) = .ok (t', rest)) ∧ t'.print std = .ok text ∧ TableClose exTable2 t' :=
  C51_table _ C51.exTable2_printable

example : Written std 20 (std.sci 'E' 12 (Dbl.ofInt (-9999999999999))) (Dbl.ofInt (-9999999999999)) :=
  C51_integer _ (by decide)

/-- The rounding of `Decimal.std` is to the nearest integer, and to the even one of two. -/
theorem C51_nearest (a b : Nat) (hb : 0 < b) :
    2 * (roundDiv a b * b) ≤ 2 * a + b ∧ 2 * a ≤ 2 * (roundDiv a b * b) + b ∧
    ((2 * (roundDiv a b * b) = 2 * a + b ∨ 2 * a = 2 * (roundDiv a b * b) + b) →
      roundDiv a b % 2 = 0) := by
  have h := Nat.div_add_mod a b
  have hm := Nat.mod_lt a hb
  have e : ∀ q : Nat, (q + 1) * b = q * b + b := fun q => by rw [Nat.add_mul, Nat.one_mul]
  rw [Nat.mul_comm b] at h
  unfold roundDiv
  split
  · refine ⟨by omega, by omega, by omega⟩
  · split
    · rw [e]; refine ⟨by omega, by omega, by omega⟩
    · rcases Nat.mod_two_eq_zero_or_one (a / b) with h0 | h0
      · rw [h0, Nat.add_zero]; refine ⟨by omega, by omega, by omega⟩
      · rw [h0, e]; refine ⟨by omega, by omega, by omega⟩

example : roundDiv 5 2 = 2 ∧ roundDiv 7 2 = 4 ∧ roundDiv 8 3 = 3 := by decide

/-- The data are in general not returned exactly: 2⁻⁴⁰ has more than 13 significant digits. -/
theorem C51_not_exact : ∃ x, IsNormal x ∧ ∃ y, Written std 20 (std.sci 'E' 12 x) y ∧ realOf y ≠ realOf x := by
  have hx : IsNormal (.fin false 1 (-40)) := C51.normal_of _ _ _ (by decide) (by decide) (by decide)
  obtain ⟨y, hy, -⟩ := C51_word _ hx
  refine ⟨_, hx, y, hy, ?_⟩
  have hv := hy.value
  have : std.value (std.sci 'E' 12 (.fin false 1 (-40))) = some (.fin false 9007199254740712 (-93)) := by
    decide +kernel
  rw [this] at hv
  rw [← Option.some.inj hv]
  norm_num [realOf]

/-- The hypotheses of the other theorems are met too. -/
example := C51_temperature exTemp C51.exNumbers.temp.2
example := C51_awr exAwr C51.exNumbers.awr.1 C51.exNumbers.awr.2.1 C51.exNumbers.awr.2.2
example := C51_aw exAwr C51.exNumbers.awr.1 C51.exNumbers.awr.2.1 (by norm_num [realOf, exAwr])
example := C51_nearest 7 2 (by decide)
example := C51_integers { exBody with aw := List.replicate 16 (Dbl.ofNat 0), xss := [1, -2, 3, 4, 9999999999999].map Dbl.ofInt }
  ⟨rfl, rfl, rfl, rfl⟩ exBody_fits.iz (by decide) exBody_fits.nxs exBody_fits.jxs exBody_fits.length rfl (by
    intro x hx
    simp only [List.mem_map] at hx
    obtain ⟨i, hi, rfl⟩ := hx
    refine ⟨i, rfl, ?_⟩
    simp only [List.mem_cons, List.not_mem_nil, or_false] at hi
    rcases hi with rfl | rfl | rfl | rfl | rfl <;> decide)

end ACE.Props
