import Verif.Props.C53
import Verif.Props.C57

/-!
# C58: a table whose numbers are rounded by the file is still the same table

`C53_made` is about numbers that survive the number formats. Here the numbers are arbitrary doubles: a table of any of
the five classes is written and read again as a table of the same class, with the same blocks, counts and locators, in
which every word differs by at most one part in 10¹². The words only have to keep the integers they stand for, which
integers with up to 13 digits and numbers that are not at a distance of 10⁻¹² of an integer or a half-integer do.
-/

namespace ACE.Props
open ACE ACE.Text ACE.Decimal

/-- The number that is read from the printed form of a word. -/
def printedAs (x : Dbl) : Dbl := (std.value (std.sci 'E' 12 x)).getD x

/-- The word stands for the same integers after it is written and read. -/
def Steady (x : Dbl) : Prop := SameInteger x (printedAs x)

/-- The same content for a table with other values of AW. -/
def setAW (aw : Words) : Content → Content
  | .ce t => .ce { t with data := { t.data with aw := aw } }
  | .dosimetry t => .dosimetry { t with data := { t.data with aw := aw } }
  | .photoatomic t => .photoatomic { t with data := { t.data with aw := aw } }
  | .photonuclear t => .photonuclear { t with data := { t.data with aw := aw } }
  | .thermal t => .thermal { t with data := { t.data with aw := aw } }

namespace C58

theorem setSZA_aw (d : TableData) (aw : Words) (z : List Char) :
    TableData.setSZA { d with aw := aw } z = Except.map (fun d => { d with aw := aw }) (d.setSZA z) := by
  have h : ∀ (d : TableData) i v, TableData.setNXS { d with aw := aw } i v =
      Except.map (fun d => { d with aw := aw }) (d.setNXS i v) := by
    intro d i v
    simp only [TableData.setNXS, natural]
  have g : ∀ i, TableData.NXS { d with aw := aw } i = d.NXS i := fun _ => rfl
  simp only [TableData.setSZA, natural, h, g]

theorem ce_aw (d : TableData) (aw : Words) (z : List Char) :
    CE.generateBlocks z { d with aw := aw } =
      Except.map (fun t => { t with data := { t.data with aw := aw } }) (CE.generateBlocks z d) := by
  simp only [CE.generateBlocks, natural]
  rfl
theorem dosimetry_aw (d : TableData) (aw : Words) (z : List Char) :
    Dosimetry.generateBlocks z { d with aw := aw } =
      Except.map (fun t => { t with data := { t.data with aw := aw } }) (Dosimetry.generateBlocks z d) := by
  simp only [Dosimetry.generateBlocks, natural]
  rfl
theorem pa_aw (d : TableData) (aw : Words) (z : List Char) :
    PA.generateBlocks z { d with aw := aw } =
      Except.map (fun t => { t with data := { t.data with aw := aw } }) (PA.generateBlocks z d) := by
  simp only [PA.generateBlocks, natural]
  rfl
theorem pn_aw (d : TableData) (aw : Words) (z : List Char) :
    PN.generateBlocks z { d with aw := aw } =
      Except.map (fun t => { t with data := { t.data with aw := aw } }) (PN.generateBlocks z d) := by
  simp only [PN.generateBlocks, natural]
  rfl
theorem ts_aw (d : TableData) (aw : Words) (z : List Char) :
    TS.generateBlocks z { d with aw := aw } =
      Except.map (fun t => { t with data := { t.data with aw := aw } }) (TS.generateBlocks z d) := by
  simp only [TS.generateBlocks, natural]
  rfl

theorem content_aw (k : TableType) (zaid : List Char) (d : TableData) (aw : Words) :
    Content.ofTable k zaid { d with aw := aw } = Except.map (setAW aw) (Content.ofTable k zaid d) := by
  cases k <;>
    simp only [Content.ofTable, CE.ofTable, Dosimetry.ofTable, PA.ofTable, PN.ofTable, TS.ofTable, natural,
      setSZA_aw, ce_aw, dosimetry_aw, pa_aw, pn_aw, ts_aw, setAW]

/-- The replacement of the words that keep their integers. -/
noncomputable def keep (x : Dbl) : Dbl := by
  classical
  exact if Steady x ∧ IsNormal x then printedAs x else x

instance : Keeps keep where
  round x := by unfold keep; split
                · next h => exact h.1.round.symm
                · rfl
  trunc x := by unfold keep; split
                · next h => exact h.1.trunc.symm
                · rfl
  neg x := by unfold keep; split
              · next h => exact h.1.neg.symm
              · rfl
  ge x n := by unfold keep; split
               · next h => exact (h.1.ge n).symm
               · rfl

theorem printed (x : Dbl) (hx : IsNormal x) : |realOf (printedAs x) - realOf x| ≤ (10 : ℚ)⁻¹ ^ 12 * |realOf x| ∧
    signOf (printedAs x) = signOf x ∧ Written std 20 (std.sci 'E' 12 x) (printedAs x) := by
  obtain ⟨y, hy, h1, h2, _⟩ := C51_word x hx
  have : printedAs x = y := by unfold printedAs; rw [hy.value]; rfl
  rw [this]
  exact ⟨h1, h2, hy⟩

theorem keep_close (x : Dbl) : |realOf (keep x) - realOf x| ≤ (10 : ℚ)⁻¹ ^ 12 * |realOf x| := by
  unfold keep
  split
  · next h => exact (printed x h.2).1
  · rw [sub_self, abs_zero]
    positivity

theorem words_eq {xs ys : Words} (hl : ys.length = xs.length)
    (h : ∀ p ∈ xs.zip ys, Written std 20 (std.sci 'E' 12 p.1) p.2) : ys = xs.map printedAs := by
  refine List.ext_getElem (by simpa using hl) fun i h1 h2 => ?_
  rw [List.getElem_map]
  have := (h (xs[i]'(by omega), ys[i]) (by
    rw [List.mem_iff_getElem]
    exact ⟨i, by simp; omega, by simp⟩)).value
  unfold printedAs
  rw [this]
  rfl

/-- What is read from a printed table. -/
theorem table (s : Table) (h : Printable s) :
    ∃ text h' aw, s.print std = .ok text ∧
      (∀ rest, Table.parse std (text ++ rest) =
        .ok (⟨h', { s.data with aw := aw, xss := s.data.xss.map printedAs }⟩, rest)) ∧
      HeaderClose s.header h' ∧ List.Forall₂ (fun x y => |realOf y - realOf x| ≤ (10 : ℚ)⁻¹ ^ 7) s.data.aw aw := by
  obtain ⟨text, s', hp, hr, _, hc⟩ := C51_table s h
  have key : s'.data.xss = s.data.xss.map printedAs := by
    clear hc
    cases h with
    | v1 h d hf hn hz h0 h1 hd =>
      obtain ⟨aw, xss, fits, close, same, sized⟩ := C51.body d hd
      obtain ⟨awr, ha, ha2, ha3, ha4⟩ := C51_awr h.awr hn.awr.1 hn.awr.2.1 hn.awr.2.2
      obtain ⟨temp, ht, ht2, ht3, ht4⟩ := C51_temperature h.temp hn.temp.2
      have pa : awr.isNeg = false := by cases awr <;> simp_all [signOf, Dbl.isNeg]
      have pt : temp.isNeg = false := by
        rw [hn.temp.1] at ht3
        cases temp <;> simp_all [signOf, Dbl.isNeg]
      obtain ⟨text', h2, h3⟩ := C41_table std _ _
        (TableFits.v1 h d awr temp aw xss hf fits hd.first ha ht pa pt hz h0 h1) []
      obtain rfl := Except.ok.inj (hp.symm.trans h2)
      have e := Except.ok.inj ((hr []).symm.trans h3)
      rw [show s' = _ from congrArg Prod.fst e]
      exact words_eq fits.xss.1 fits.xss.2
    | v2 h d hf hn hd =>
      obtain ⟨aw, xss, fits, close, same, sized⟩ := C51.body d hd
      obtain ⟨awr, ha, ha2, ha3, ha4⟩ := C51_awr h.awr hn.awr.1 hn.awr.2.1 hn.awr.2.2
      obtain ⟨temp, ht, ht2, ht3, ht4⟩ := C51_temperature h.temp hn.temp.2
      have pa : awr.isNeg = false := by cases awr <;> simp_all [signOf, Dbl.isNeg]
      have pt : temp.isNeg = false := by
        rw [hn.temp.1] at ht3
        cases temp <;> simp_all [signOf, Dbl.isNeg]
      obtain ⟨text', h2, h3⟩ := C41_table std _ _
        (TableFits.v2 h d awr temp aw xss hf fits hd.first ha ht pa pt) []
      obtain rfl := Except.ok.inj (hp.symm.trans h2)
      have e := Except.ok.inj ((hr []).symm.trans h3)
      rw [show s' = _ from congrArg Prod.fst e]
      exact words_eq fits.xss.1 fits.xss.2
  clear h
  cases hc with
  | v1 h d d' awr temp hn hd =>
    refine ⟨text, _, d'.aw, hp, ?_, .v1 h awr temp hn, hd.aw⟩
    intro rest
    rw [hr rest]
    congr 3
    cases d'
    simp only at key ⊢
    rw [← key]
    have h1 := hd.iz; have h2 := hd.nxs; have h3 := hd.jxs
    simp only at h1 h2 h3
    subst h1 h2 h3
    rfl
  | v2 h d d' awr temp hn hd =>
    refine ⟨text, _, d'.aw, hp, ?_, .v2 h awr temp hn, hd.aw⟩
    intro rest
    rw [hr rest]
    congr 3
    cases d'
    simp only at key ⊢
    rw [← key]
    have h1 := hd.iz; have h2 := hd.nxs; have h3 := hd.jxs
    simp only at h1 h2 h3
    subst h1 h2 h3
    rfl

theorem map_keep {xs : Words} (h : ∀ x ∈ xs, Steady x) (hn : ∀ x ∈ xs, IsNormal x) :
    xs.map keep = xs.map printedAs := by
  refine List.map_congr_left fun x hx => ?_
  unfold keep
  rw [if_pos ⟨h x hx, hn x hx⟩]

theorem body_printable {s : Table} (h : Printable s) : BodyPrintable s.data := by cases h <;> assumption

end C58

/-- Any table of the five classes with a printable header and printable numbers whose words keep their integers is
written to a file, and the file is read as a table of the same class with the same content except that every word `x`
is replaced by a number `r x` which differs by at most 10⁻¹² `|x|` and stands for the same integers, and that the
values of AW are rounded to 7 decimals. -/
theorem C58_file (t : Typed) (h : Constructed t) (hp : Printable t.table) (hs : ∀ x ∈ t.table.data.xss, Steady x) :
    ∃ text h' r aw, t.print std = .ok text ∧ HeaderClose t.header h' ∧ Keeps r ∧
      (∀ x, |realOf (r x) - realOf x| ≤ (10 : ℚ)⁻¹ ^ 12 * |realOf x|) ∧
      List.Forall₂ (fun x y => |realOf y - realOf x| ≤ (10 : ℚ)⁻¹ ^ 7) t.table.data.aw aw ∧
      ∀ rest, ∃ s, Table.parse std (text ++ rest) = .ok (s, rest) ∧
        Typed.ofTable t.kind s = .ok ⟨h', setAW aw (t.content.mapw r)⟩ := by
  obtain ⟨text, h', aw, hpr, hr, hc, ha⟩ := C58.table t.table hp
  refine ⟨text, h', C58.keep, aw, hpr, hc, inferInstance, C58.keep_close, ha, fun rest => ⟨_, hr rest, ?_⟩⟩
  obtain ⟨s, hs'⟩ := C53.constructed h
  obtain ⟨h1, h2, _⟩ := C53.ofTable_ok hs'
  have hz : h'.zaid = s.header.zaid := by
    rw [(C53_header hc).1, ← h1]
    rfl
  have ha := C53.content_again h2
  unfold Typed.ofTable
  simp only [hz]
  rw [← C58.map_keep hs (C58.body_printable hp).xss]
  have e : ({ t.table.data with aw := aw, xss := t.table.data.xss.map C58.keep } : TableData) =
      { (t.content.data.mapw C58.keep) with aw := aw } := rfl
  rw [e, C58.content_aw, C57_content, ha]
  rfl

/-! ## Words that keep their integers -/

namespace C58

theorem pow2_split (e : Int) : (2 : ℚ) ^ e = if 0 ≤ e then (2 : ℚ) ^ e.toNat else ((2 : ℚ) ^ (-e).toNat)⁻¹ := by
  split
  · next h => rw [← zpow_natCast, Int.toNat_of_nonneg h]
  · next h => rw [← zpow_natCast, Int.toNat_of_nonneg (by omega), zpow_neg, inv_inv]

theorem le_mag (n m : Nat) (e : Int) :
    ((n : ℚ) ≤ m * 2 ^ e) ↔ if 0 ≤ e then n ≤ m * 2 ^ e.toNat else n * 2 ^ (-e).toNat ≤ m := by
  rw [pow2_split]
  split
  · exact_mod_cast Iff.rfl
  · rw [← div_eq_mul_inv, le_div_iff₀ (by positivity)]
    exact_mod_cast Iff.rfl

theorem le_trunc (n m : Nat) (e : Int) : n ≤ Dbl.truncMag m e ↔ (n : ℚ) ≤ m * 2 ^ e := by
  rw [le_mag]
  unfold Dbl.truncMag
  split
  · exact Iff.rfl
  · rw [Nat.le_div_iff_mul_le (by positivity)]

theorem le_round (n m : Nat) (e : Int) : n ≤ Dbl.roundMag m e ↔ ((2 * n : Nat) : ℚ) ≤ 2 * (m * 2 ^ e) + 1 := by
  rw [pow2_split]
  unfold Dbl.roundMag
  split
  · have : ((2 * n : Nat) : ℚ) ≤ 2 * (m * 2 ^ e.toNat) + 1 ↔ 2 * n ≤ 2 * (m * 2 ^ e.toNat) + 1 := by
      exact_mod_cast Iff.rfl
    rw [this]
    omega
  · rw [Nat.le_div_iff_mul_le (by positivity)]
    generalize (-e).toNat = k
    have hp : (0 : ℚ) < 2 ^ k := by positivity
    have : ((2 * n : Nat) : ℚ) ≤ 2 * (m * ((2 : ℚ) ^ k)⁻¹) + 1 ↔ ((2 * n : Nat) : ℚ) * 2 ^ k ≤ 2 * m + 2 ^ k := by
      rw [← mul_le_mul_iff_left₀ hp]
      rw [show (2 * (m * ((2 : ℚ) ^ k)⁻¹) + 1) * 2 ^ k = 2 * m + 2 ^ k by field_simp]
    rw [this, pow_succ]
    have e2 : n * (2 ^ k * 2) = 2 * n * 2 ^ k := by ring
    rw [e2]
    exact_mod_cast Iff.rfl

theorem le_eq {a b : Nat} (h : ∀ n : Nat, n ≤ a ↔ n ≤ b) : a = b :=
  Nat.le_antisymm ((h a).mp le_rfl) ((h b).mpr le_rfl)

theorem same_of_halves (neg : Bool) (m m' : Nat) (e e' : Int)
    (h : ∀ k : Nat, (k : ℚ) ≤ 2 * (m * 2 ^ e) ↔ (k : ℚ) ≤ 2 * (m' * 2 ^ e'))
    (h0 : m = 0 ↔ m' = 0) : SameInteger (.fin neg m e) (.fin neg m' e') := by
  have beq_eq : (m == 0) = (m' == 0) := by rw [Bool.eq_iff_iff]; simpa using h0
  have bne_eq : (m != 0) = (m' != 0) := by unfold bne; rw [beq_eq]
  have ht : ∀ n : Nat, (n : ℚ) ≤ m * 2 ^ e ↔ (n : ℚ) ≤ m' * 2 ^ e' := by
    intro n
    have := h (2 * n)
    push_cast at this
    constructor
    · intro q; linarith [this.mp (by linarith)]
    · intro q; linarith [this.mpr (by linarith)]
  have hT : Dbl.truncMag m e = Dbl.truncMag m' e' := le_eq fun n => by rw [le_trunc, le_trunc, ht]
  have hR : Dbl.roundMag m e = Dbl.roundMag m' e' := le_eq fun n => by
    rw [le_round, le_round]
    rcases n with - | n
    · have a1 : (0 : ℚ) ≤ m * 2 ^ e := by positivity
      have a2 : (0 : ℚ) ≤ m' * 2 ^ e' := by positivity
      constructor <;> intro _ <;> push_cast <;> linarith
    · have := h (2 * n + 1)
      push_cast at this ⊢
      constructor
      · intro q; linarith [this.mp (by linarith)]
      · intro q; linarith [this.mpr (by linarith)]
  refine ⟨by simp only [Dbl.round?, hR], by simp only [Dbl.trunc?, hT], ?_, ?_⟩
  · show (neg && m != 0) = (neg && m' != 0)
    rw [bne_eq]
  · intro n
    cases neg
    · have a := le_mag n m e
      have b := le_mag n m' e'
      have c := (a.symm.trans (ht n)).trans b
      simp only [Dbl.geNat]
      split <;> split <;> simp_all
    · show (m == 0 && n == 0) = (m' == 0 && n == 0)
      rw [beq_eq]

end C58

/-- A word keeps its integers when it survives printing (as integers with up to 13 digits do), or when it is further
than one part in 10¹² from every integer and every half-integer. -/
theorem C58_steady (x : Dbl) (hx : IsNormal x)
    (h : ExactWord x ∨ ∀ k : Int, 2 * ((10 : ℚ)⁻¹ ^ 12 * |realOf x|) < |2 * realOf x - k|) : Steady x := by
  rcases h with h | h
  · have : printedAs x = x := by unfold printedAs; rw [h.value]; rfl
    unfold Steady
    rw [this]
    exact ⟨rfl, rfl, rfl, fun _ => rfl⟩
  · obtain ⟨hc, hs, -⟩ := C58.printed x hx
    unfold Steady
    generalize printedAs x = y at *
    have hne : realOf x ≠ 0 := by
      intro h0
      have := h 0
      rw [h0] at this
      simp at this
    have far : (10 : ℚ)⁻¹ ^ 12 * |realOf x| < |realOf x| := by
      have : (0 : ℚ) < |realOf x| := abs_pos.mpr hne
      nlinarith [show ((10 : ℚ)⁻¹ ^ 12) < 1 by norm_num]
    cases x with
    | inf s => exact hx.elim
    | nan => exact hx.elim
    | fin neg m e =>
      cases y with
      | inf s =>
        simp only [realOf] at hc
        rw [zero_sub, abs_neg] at hc
        exact absurd hc (not_le.mpr far)
      | nan =>
        simp only [realOf] at hc
        rw [zero_sub, abs_neg] at hc
        exact absurd hc (not_le.mpr far)
      | fin neg' m' e' =>
        obtain rfl : neg' = neg := hs
        have hpos : (0 : ℚ) < m * 2 ^ e := by
          rw [← C51.real_abs neg' m e]
          exact abs_pos.mpr hne
        rw [C51.real_abs] at hc h
        unfold realOf at hc
        rw [C51.real_sub] at hc
        have hb : (0 : ℚ) ≤ m' * 2 ^ e' := by positivity
        have hk : ∀ k : Nat, 2 * ((10 : ℚ)⁻¹ ^ 12 * (m * 2 ^ e)) < |2 * ((m : ℚ) * 2 ^ e) - k| := by
          intro k
          have := h (if neg' then -(k : Int) else k)
          unfold realOf at this
          cases neg'
          · simpa using this
          · simp only [if_true] at this
            push_cast at this
            rw [show 2 * (-1 * ((m : ℚ) * 2 ^ e)) - -(k : ℚ) = -(2 * (m * 2 ^ e) - k) by ring, abs_neg] at this
            exact this
        clear h far
        rw [abs_le] at hc
        have hsmall : (10 : ℚ)⁻¹ ^ 12 < 1 := by norm_num
        refine C58.same_of_halves neg' m m' e e' ?_ ?_
        · intro k
          have := hk k
          constructor
          · intro hle
            rw [abs_of_nonneg (by linarith)] at this
            linarith
          · intro hle
            by_contra hlt
            rw [not_le] at hlt
            rw [abs_of_neg (by linarith)] at this
            linarith
        · constructor
          · intro h0; rw [h0] at hpos; simp at hpos
          · intro h0
            rw [h0] at hc
            exfalso
            have : (10 : ℚ)⁻¹ ^ 12 * (m * 2 ^ e) < m * 2 ^ e := by nlinarith
            simp only [Nat.cast_zero, zero_mul] at hc
            linarith [hc.1]


/-- For a table made from blocks the sizes are as they have to be: the header and the numbers have to fit their columns,
and the words have to keep their integers. -/
theorem C58_made (h : AnyHeader) (a : Typed.Arguments) (t : Typed) (ht : Typed.make h a = .ok t)
    (hh : HeaderPrintable h) (hi : ∀ i ∈ t.table.data.iz, FitsField 7 i)
    (ha : ∀ x ∈ t.table.data.aw, signOf x = false ∧ IsNormal x ∧ realOf x ≤ 999)
    (hn : ∀ i ∈ t.table.data.nxs, FitsField 9 i) (hj : ∀ i ∈ t.table.data.jxs, FitsField 9 i)
    (hl : FitsField 9 (t.table.data.xss.length : Int))
    (hx : ∀ x ∈ t.table.data.xss, IsNormal x ∧ Steady x) :
    ∃ text h' r aw, t.print std = .ok text ∧ HeaderClose h h' ∧ Keeps r ∧
      (∀ x, |realOf (r x) - realOf x| ≤ (10 : ℚ)⁻¹ ^ 12 * |realOf x|) ∧
      List.Forall₂ (fun x y => |realOf y - realOf x| ≤ (10 : ℚ)⁻¹ ^ 7) t.table.data.aw aw ∧
      ∀ rest, ∃ s, Table.parse std (text ++ rest) = .ok (s, rest) ∧
        Typed.ofTable a.kind s = .ok ⟨h', setAW aw (t.content.mapw r)⟩ := by
  obtain ⟨r1, r2, _⟩ := C53_made_regular _ _ _ ht
  have hc := Constructed.blocks h a t ht
  unfold Typed.make at ht
  obtain ⟨d, _, ht⟩ := bind_eq_ok.mp ht
  obtain ⟨e, _, e3⟩ := C53.ofTable_ok ht
  have hb : BodyPrintable t.table.data := ⟨r1, hi, ha, hn, hj, hl, fun x q => (hx x q).1, r2⟩
  have hp : Printable t.table := by
    have : t.table = ⟨h, t.table.data⟩ := by
      show (⟨t.header, _⟩ : Table) = _
      rw [e]
      rfl
    rw [this]
    cases hh with
    | v1 _ hf hn hz h0 h1 => exact .v1 _ _ hf hn hz h0 h1 hb
    | v2 _ hf hn => exact .v2 _ _ hf hn hb
  have := C58_file t hc hp fun x q => (hx x q).2
  rw [e, e3] at this
  exact this

namespace C58

/-- The double nearest to 1/3. -/
def third : Dbl := .fin false 6004799503160661 (-54)

theorem third_normal : IsNormal third := C51.normal_of _ _ _ (by decide) (by decide) (by decide)

theorem third_steady : Steady third := by
  refine C58_steady third third_normal (.inr fun k => ?_)
  have e : realOf third = 6004799503160661 / 18014398509481984 := by
    norm_num [realOf, third, zpow_neg]
  rw [e]
  rcases le_or_gt k 0 with hk | hk
  · have : (k : ℚ) ≤ 0 := by exact_mod_cast hk
    rw [abs_of_nonneg (by norm_num), abs_of_nonneg (by linarith)]
    norm_num
    linarith
  · have : (1 : ℚ) ≤ k := by exact_mod_cast hk
    rw [abs_of_nonneg (by norm_num), abs_of_neg (by linarith)]
    norm_num
    linarith

/-- 1/3 changes when it is printed. -/
theorem third_changes : printedAs third ≠ third := by decide +kernel

/-- Whether a table can be made from blocks and its body is of whole numbers and thirds. -/
def check (zaid : Str) (a : Typed.Arguments) : Bool :=
  match Typed.make (.v1 (C53.header zaid)) a with
  | .ok t => C53.plain { t.table.data with xss := t.table.data.xss.map fun x => if x = third then num 0 else x } &&
      t.table.data.xss.contains third
  | .error _ => false

theorem whole_steady {x : Dbl} (h : C53.whole x = true) : Steady x :=
  C58_steady x (C53.whole_normal h) (.inl (C53.whole_exact h))

theorem survives {zaid : Str} {a : Typed.Arguments} (h : check zaid a = true)
    (hh : HeaderPrintable (.v1 (C53.header zaid))) :
    ∃ t, Typed.make (.v1 (C53.header zaid)) a = .ok t ∧ third ∈ t.table.data.xss ∧
      ∃ text h' r aw, t.print std = .ok text ∧ Keeps r ∧ ∀ rest, ∃ s, Table.parse std (text ++ rest) = .ok (s, rest) ∧
        Typed.ofTable a.kind s = .ok ⟨h', setAW aw (t.content.mapw r)⟩ := by
  unfold check at h
  split at h
  · next t ht =>
    simp only [Bool.and_eq_true] at h
    obtain ⟨h1, h2⟩ := h
    obtain ⟨r1, r2, _⟩ := C53_made_regular _ _ _ ht
    have b := C53.plain_printable h1 ⟨r1.iz, r1.aw, r1.nxs, r1.jxs⟩ (by
      show t.table.data.NXS 1 = _
      rw [r2, List.length_map])
    have hl := b.length
    simp only [List.length_map] at hl
    simp only [C53.plain, Bool.and_eq_true, List.all_eq_true] at h1
    obtain ⟨_, h6⟩ := h1
    obtain ⟨text, h', r, aw, q1, _, q3, _, _, q6⟩ := C58_made _ _ _ ht hh b.iz b.aw b.nxs b.jxs hl (by
      intro x hx
      by_cases e : x = third
      · rw [e]; exact ⟨third_normal, third_steady⟩
      · have := h6 _ (List.mem_map_of_mem hx)
        rw [if_neg e] at this
        exact ⟨C53.whole_normal this, whole_steady this⟩)
    exact ⟨t, ht, by simpa using h2, text, h', r, aw, q1, q3, q6⟩
  · cases h

end C58

/-- A dosimetry table with a cross section of 1/3, which is printed as another number. -/
example : ∃ t, Typed.make (.v1 (C53.header "26056.10y".toList)) (.dosimetry 26 56 (made (MTR.mk' [16]))
      (made (SIGD.mk' [made (TabulatedData.mk' [] [] [num 1, num 20] [C58.third, num 4])]))) = .ok t ∧
    C58.third ∈ t.table.data.xss ∧ ∃ text h' r aw, t.print std = .ok text ∧ Keeps r ∧
      ∀ rest, ∃ s, Table.parse std (text ++ rest) = .ok (s, rest) ∧
        Typed.ofTable .dosimetry s = .ok ⟨h', setAW aw (t.content.mapw r)⟩ :=
  C58.survives (by decide +kernel) (C53.header_printable _ (by decide +kernel) (by decide +kernel) (by decide +kernel)
    (by decide +kernel) (by decide +kernel))

/-- The condition is needed: the number before 3 is printed as 3 and then truncates to another integer. -/
theorem C58_unsteady : IsNormal (.fin false 6755399441055743 (-51)) ∧ ¬ Steady (.fin false 6755399441055743 (-51)) ∧
    (Dbl.fin false 6755399441055743 (-51)).trunc? = some 2 ∧
    (printedAs (.fin false 6755399441055743 (-51))).trunc? = some 3 :=
  ⟨C51.normal_of _ _ _ (by decide) (by decide) (by decide), fun h => absurd h.trunc (by decide +kernel),
   by decide +kernel, by decide +kernel⟩

end ACE.Props
