import Verif.Model.Typed
import Verif.Props.C32
import Verif.Props.C33
import Verif.Props.C34
import Verif.Props.C35
import Verif.Props.C51

/-!
# C53: a table is the same after it is copied, and after it is written and read

Tables of the five classes are made from a generic table or from blocks. A copy (which reads all blocks
again) is the same table; a table that is written to a file and read again as the same class is the same
table when its numbers survive the number formats (as those of a file, and integers up to 13 digits, do).
-/

namespace ACE.Props
open ACE ACE.Text ACE.Decimal

/-- The tables of a program: made from a generic table or from blocks. -/
inductive Constructed : Typed → Prop where
  | table (k : TableType) (s : Table) (t : Typed) : Typed.ofTable k s = .ok t → Constructed t
  | blocks (h : AnyHeader) (a : Typed.Arguments) (t : Typed) : Typed.make h a = .ok t → Constructed t

namespace C53

theorem fetch_ok {α : Type} {l : List α} {i : Nat} {v : α} (h : TableData.fetch l (i + 1) = .ok v) :
    l[i]? = some v := by
  unfold TableData.fetch at h
  obtain ⟨_, _, h⟩ := bind_eq_ok.mp h
  rw [Nat.add_sub_cancel] at h
  cases hv : l[i]? with
  | none => rw [hv] at h; cases h
  | some w => rw [hv] at h; injection h with h; rw [h]

theorem setNXS_ok {d d' : TableData} {i : Nat} {v : Int} (h : d.setNXS (i + 1) v = .ok d') :
    i < d.nxs.length ∧ d' = { d with nxs := d.nxs.set i v } := by
  unfold TableData.setNXS TableData.verifyIndex at h
  split at h
  · cases h
  · next hn =>
    rw [ok_bind] at h
    injection h with h
    exact ⟨by omega, h.symm⟩

theorem setNXS_of {d : TableData} {i : Nat} (v : Int) (h : i < d.nxs.length) :
    d.setNXS (i + 1) v = .ok { d with nxs := d.nxs.set i v } := by
  unfold TableData.setNXS TableData.verifyIndex
  rw [if_neg (by omega), ok_bind]
  rfl

/-- Setting S, Z and A again does nothing. -/
theorem setSZA_again {d d' : TableData} {zaid : List Char} (h : d.setSZA zaid = .ok d') :
    d'.setSZA zaid = .ok d' := by
  have h' := h
  unfold TableData.setSZA at h
  obtain ⟨v9, h9, h⟩ := bind_eq_ok.mp h
  obtain ⟨v10, h10, h⟩ := bind_eq_ok.mp h
  obtain ⟨v11, h11, h⟩ := bind_eq_ok.mp h
  split at h
  · obtain ⟨za, hz, h⟩ := bind_eq_ok.mp h
    obtain ⟨d1, h1, h⟩ := bind_eq_ok.mp h
    obtain ⟨d2, h2, h3⟩ := bind_eq_ok.mp h
    obtain ⟨b1, rfl⟩ := setNXS_ok h1
    obtain ⟨b2, rfl⟩ := setNXS_ok h2
    obtain ⟨b3, rfl⟩ := setNXS_ok h3
    simp only [List.length_set] at b2 b3
    generalize hs : Ident.derive (za % 4294967296).toNat = sza at *
    have g9 : TableData.NXS { d with nxs := ((d.nxs.set 8 sza.1).set 9 sza.2.1).set 10 sza.2.2 } 9 = .ok (sza.1 : Int) :=
      NXS_get _ 8 _ (by simp [List.getElem?_set]; omega)
    have g10 : TableData.NXS { d with nxs := ((d.nxs.set 8 sza.1).set 9 sza.2.1).set 10 sza.2.2 } 10 = .ok (sza.2.1 : Int) :=
      NXS_get _ 9 _ (by simp [List.getElem?_set]; omega)
    have g11 : TableData.NXS { d with nxs := ((d.nxs.set 8 sza.1).set 9 sza.2.1).set 10 sza.2.2 } 11 = .ok (sza.2.2 : Int) :=
      NXS_get _ 10 _ (by simp [List.getElem?_set]; omega)
    unfold TableData.setSZA
    simp only [g9, g10, g11, ok_bind]
    split
    · rw [hz, ok_bind, hs]
      rw [setNXS_of _ (by simp; omega), ok_bind, setNXS_of _ (by simp; omega), ok_bind, setNXS_of _ (by simp; omega)]
      congr 2
      refine List.ext_getElem (by simp) ?_
      intro i _ _
      simp only [List.getElem_set]
      split <;> rename_i hh
      · simp_all
      · split <;> rename_i hh2 <;> simp_all
    · rfl
  · injection h with h
    subst h
    exact h'

theorem again_ce {zaid : Str} {d : TableData} {t : CE} (h : CE.ofTable zaid d = .ok t) :
    CE.ofTable zaid t.data = .ok t := by
  unfold CE.ofTable at h ⊢
  obtain ⟨_, hv, h⟩ := bind_eq_ok.mp h
  obtain ⟨d', hs, h⟩ := bind_eq_ok.mp h
  have hd : t.data = d' := by
    unfold CE.generateBlocks at h
    repeat (obtain ⟨_, _, h⟩ := bind_eq_ok.mp h)
    injection h with h
    rw [← h]
  rw [hv, hd, ok_bind, setSZA_again hs, ok_bind, h]

theorem again_pn {zaid : Str} {d : TableData} {t : PN} (h : PN.ofTable zaid d = .ok t) :
    PN.ofTable zaid t.data = .ok t ∧ PN.generateBlocks zaid t.data = .ok t ∧
      TableType.photonuclear.verifyType zaid = .ok () := by
  unfold PN.ofTable at h ⊢
  obtain ⟨_, hv, h⟩ := bind_eq_ok.mp h
  obtain ⟨d', hs, h⟩ := bind_eq_ok.mp h
  have hd : t.data = d' := by
    unfold PN.generateBlocks at h
    repeat (obtain ⟨_, _, h⟩ := bind_eq_ok.mp h)
    injection h with h
    rw [← h]
  rw [hv, hd, ok_bind, setSZA_again hs, ok_bind, h]
  exact ⟨rfl, rfl, rfl⟩

theorem again_dosimetry {zaid : Str} {d : TableData} {t : Dosimetry} (h : Dosimetry.ofTable zaid d = .ok t) :
    Dosimetry.ofTable zaid t.data = .ok t := by
  have h' := h
  unfold Dosimetry.ofTable Dosimetry.generateBlocks at h
  repeat (obtain ⟨_, _, h⟩ := bind_eq_ok.mp h)
  injection h with h
  rw [show t.data = d by rw [← h]]
  exact h'

theorem again_pa {zaid : Str} {d : TableData} {t : PA} (h : PA.ofTable zaid d = .ok t) :
    PA.ofTable zaid t.data = .ok t := by
  have h' := h
  unfold PA.ofTable PA.generateBlocks at h
  repeat (obtain ⟨_, _, h⟩ := bind_eq_ok.mp h)
  injection h with h
  rw [show t.data = d by rw [← h]]
  exact h'

theorem again_ts {zaid : Str} {d : TableData} {t : TS} (h : TS.ofTable zaid d = .ok t) :
    TS.ofTable zaid t.data = .ok t := by
  have h' := h
  unfold TS.ofTable TS.generateBlocks at h
  repeat (obtain ⟨_, _, h⟩ := bind_eq_ok.mp h)
  injection h with h
  rw [show t.data = d by rw [← h]]
  exact h'

theorem content_again {k : TableType} {zaid : Str} {d : TableData} {c : Content}
    (h : Content.ofTable k zaid d = .ok c) : Content.ofTable k zaid c.data = .ok c := by
  cases k <;> simp only [Content.ofTable] at h <;> obtain ⟨t, ht, h⟩ := bind_eq_ok.mp h <;> injection h with h <;> subst h <;>
    simp only [Content.ofTable, Content.data]
  · rw [again_ce ht]; rfl
  · rw [again_dosimetry ht]; rfl
  · rw [again_pa ht]; rfl
  · rw [(again_pn ht).1]; rfl
  · rw [again_ts ht]; rfl

theorem ofTable_ok {k : TableType} {s : Table} {t : Typed} (h : Typed.ofTable k s = .ok t) :
    t.header = s.header ∧ Content.ofTable k s.header.zaid s.data = .ok t.content ∧ t.kind = k := by
  unfold Typed.ofTable at h
  obtain ⟨c, hc, h⟩ := bind_eq_ok.mp h
  injection h with h
  subst h
  refine ⟨rfl, hc, ?_⟩
  cases k <;> unfold Content.ofTable at hc <;> obtain ⟨t, _, hc⟩ := bind_eq_ok.mp hc <;> injection hc with hc <;> subst hc <;> rfl

theorem constructed {t : Typed} (h : Constructed t) : ∃ s, Typed.ofTable t.kind s = .ok t := by
  cases h with
  | table k s _ h => obtain ⟨_, _, rfl⟩ := ofTable_ok h; exact ⟨s, h⟩
  | blocks hd a _ h =>
    unfold Typed.make at h
    obtain ⟨d, _, h⟩ := bind_eq_ok.mp h
    have := (ofTable_ok h).2.2
    exact ⟨_, this ▸ h⟩

theorem zaid_of_fits {F : Formats} {t t' : Table} (h : TableFits F t t') : t'.header.zaid = t.header.zaid := by
  cases h <;> rfl

end C53

/-- A copied and an assigned table is the same table. -/
theorem C53_copy (t : Typed) (h : Constructed t) : t.copy = .ok t ∧ t.assign = .ok t := by
  obtain ⟨s, hs⟩ := C53.constructed h
  obtain ⟨h1, h2, _⟩ := C53.ofTable_ok hs
  have hc := C53.content_again h2
  have hcopy : Typed.ofTable t.kind t.table = .ok t := by
    unfold Typed.ofTable Typed.table
    simp only [h1]
    rw [hc, ok_bind, ← h1]
    rfl
  refine ⟨hcopy, ?_⟩
  unfold Typed.assign
  split
  · next pn he =>
    have hk : t.kind = .photonuclear := by unfold Typed.kind; rw [he]
    rw [hk] at h2
    unfold Content.ofTable at h2
    obtain ⟨u, hu, h2⟩ := bind_eq_ok.mp h2
    injection h2 with h2
    obtain ⟨_, a1, a2⟩ := C53.again_pn hu
    rw [← h2]
    simp only [Content.data, h1, a2, ok_bind, a1]
    show Except.ok _ = Except.ok t
    congr 1
    rw [← h1, h2]
  · exact hcopy

/-- A table is written to a file and read as a table of the same class: it has the same strings and integers
in its header, and the same blocks when the numbers of the data survive the formats. The header `h'` is the
header of the table except for the numbers, which are those that the printed numbers are read as. -/
theorem C53_file (F : Formats) (t : Typed) (h : Constructed t) (h' : AnyHeader)
    (hf : TableFits F t.table ⟨h', t.table.data⟩) (rest : Str) :
    ∃ text s, t.print F = .ok text ∧ Table.parse F (text ++ rest) = .ok (s, rest) ∧
      Typed.ofTable t.kind s = .ok ⟨h', t.content⟩ := by
  obtain ⟨s, hs⟩ := C53.constructed h
  obtain ⟨h1, h2, _⟩ := C53.ofTable_ok hs
  obtain ⟨text, hp, hr⟩ := C41_table F _ _ hf rest
  refine ⟨text, _, hp, hr, ?_⟩
  unfold Typed.ofTable
  have hz : h'.zaid = s.header.zaid := by
    rw [show h'.zaid = t.table.header.zaid from C53.zaid_of_fits hf, ← h1]
    rfl
  simp only [hz]
  rw [show t.table.data = t.content.data from rfl, C53.content_again h2, ok_bind]
  rfl

/-! ## Tables made from blocks -/

namespace C53

theorem nxs1_setSZA {d d' : TableData} {zaid : List Char} (h : d.setSZA zaid = .ok d') (hs : d.Sized)
    (h1 : d.NXS 1 = .ok (d.xss.length : Int)) :
    d'.Sized ∧ d'.NXS 1 = .ok (d'.xss.length : Int) ∧ d'.iz = d.iz ∧ d'.aw = d.aw ∧ d'.jxs = d.jxs ∧ d'.xss = d.xss := by
  unfold TableData.setSZA at h
  obtain ⟨v9, h9, h⟩ := bind_eq_ok.mp h
  obtain ⟨v10, h10, h⟩ := bind_eq_ok.mp h
  obtain ⟨v11, h11, h⟩ := bind_eq_ok.mp h
  split at h
  · obtain ⟨za, hz, h⟩ := bind_eq_ok.mp h
    obtain ⟨d1, q1, h⟩ := bind_eq_ok.mp h
    obtain ⟨d2, q2, q3⟩ := bind_eq_ok.mp h
    obtain ⟨b1, rfl⟩ := setNXS_ok q1
    obtain ⟨b2, rfl⟩ := setNXS_ok q2
    obtain ⟨b3, rfl⟩ := setNXS_ok q3
    refine ⟨⟨hs.iz, hs.aw, by simp [hs.nxs], hs.jxs⟩, ?_, rfl, rfl, rfl, rfl⟩
    have := fetch_ok (i := 0) h1
    exact NXS_get _ 0 _ (by simpa [List.getElem?_set] using this)
  · injection h with h
    subst h
    exact ⟨hs, h1, rfl, rfl, rfl, rfl⟩

/-- The arrays have their sizes and NXS(1) is the number of words. -/
def Regular (d : TableData) : Prop := d.Sized ∧ d.NXS 1 = .ok (d.xss.length : Int)

theorem regular_ce {z a s : Nat} {b : CE.Input} {d : TableData} (h : CE.generateData z a s b = .ok d) : Regular d := by
  unfold CE.generateData at h
  obtain ⟨tyr, _, h⟩ := bind_eq_ok.mp h
  obtain ⟨tyrh, _, h⟩ := bind_eq_ok.mp h
  obtain ⟨_, _, h⟩ := bind_eq_ok.mp h
  obtain ⟨_, _, h⟩ := bind_eq_ok.mp h
  obtain ⟨_, _, h⟩ := bind_eq_ok.mp h
  obtain ⟨x, hx, h⟩ := bind_eq_ok.mp h
  obtain ⟨_, _, h⟩ := bind_eq_ok.mp h
  injection h with h
  subst h
  have hl : x.2.length = 32 := by
    unfold CE.assemble at hx
    obtain ⟨_, _, hx⟩ := bind_eq_ok.mp hx
    injection hx with hx
    subst hx
    rfl
  exact ⟨⟨rfl, rfl, rfl, hl⟩, NXS_get _ 0 _ rfl⟩

theorem regular_dosimetry {z a : Nat} {m : MTR} {s : SIGD} {d : TableData}
    (h : Dosimetry.generateData z a m s = .ok d) : Regular d := by
  unfold Dosimetry.generateData at h
  obtain ⟨_, _, h⟩ := bind_eq_ok.mp h
  injection h with h
  subst h
  exact ⟨⟨rfl, rfl, rfl, rfl⟩, NXS_get _ 0 _ rfl⟩

theorem regular_pa {b : PA.Input} {d : TableData} (h : PA.generateData b = .ok d) : Regular d := by
  unfold PA.generateData at h
  obtain ⟨ta, ht, h⟩ := bind_eq_ok.mp h
  obtain ⟨e, _, h⟩ := bind_eq_ok.mp h
  obtain ⟨_, _, h⟩ := bind_eq_ok.mp h
  obtain ⟨_, _, h⟩ := bind_eq_ok.mp h
  obtain ⟨_, _, h⟩ := bind_eq_ok.mp h
  injection h with h
  subst h
  have h1 : ta.1.length = 16 ∧ ta.2.length = 16 := by
    unfold PA.targets at ht
    split at ht
    · next hc =>
      injection ht with ht
      subst ht
      constructor <;> simp <;> omega
    · cases ht
  refine ⟨⟨h1.1, h1.2, rfl, ?_⟩, NXS_get _ 0 _ rfl⟩
  simp only [List.length_append, List.length_replicate, List.length_cons, List.length_nil]
  have a5 : ∀ x n ep sw, (PA.addShells x n ep sw).2.length = 5 := by
    intro x n ep sw
    cases ep <;> cases sw <;> rfl
  have a17 : ∀ x e, (PA.addElectrons x e).2.length = 17 := by
    intro x e
    unfold PA.addElectrons
    cases e with
    | none => rfl
    | some e =>
      dsimp only
      split <;> rfl
  rw [a5, a17]

theorem regular_pn {z a s : Nat} {b : PN.Input} {d : TableData} (h : PN.generateData z a s b = .ok d) : Regular d := by
  unfold PN.generateData at h
  obtain ⟨tyrh, _, h⟩ := bind_eq_ok.mp h
  obtain ⟨_, _, h⟩ := bind_eq_ok.mp h
  obtain ⟨el, _, h⟩ := bind_eq_ok.mp h
  obtain ⟨w, hw, h⟩ := bind_eq_ok.mp h
  injection h with h
  subst h
  refine ⟨⟨rfl, rfl, rfl, ?_⟩, NXS_get _ 0 _ rfl⟩
  have h2 : w.2.length = 2 := by
    unfold PN.addSecondaries at hw
    split at hw
    · injection hw with hw; subst hw; rfl
    · obtain ⟨_, _, hw⟩ := bind_eq_ok.mp hw
      obtain ⟨_, _, hw⟩ := bind_eq_ok.mp hw
      obtain ⟨_, _, hw⟩ := bind_eq_ok.mp hw
      injection hw with hw; subst hw; rfl
  have h5 : ∀ n e, (PN.principalLocators n e).length = 5 := by
    intro n e; unfold PN.principalLocators; split <;> rfl
  simp only [List.length_append, List.length_replicate, List.length_cons, List.length_nil, h2, h5]

theorem regular_ts {b : TS.Input} {d : TableData} (h : TS.generateData b = .ok d) : Regular d := by
  unfold TS.generateData at h
  obtain ⟨iz, hi, h⟩ := bind_eq_ok.mp h
  obtain ⟨_, _, h⟩ := bind_eq_ok.mp h
  obtain ⟨_, _, h⟩ := bind_eq_ok.mp h
  obtain ⟨_, _, h⟩ := bind_eq_ok.mp h
  obtain ⟨x, hx, h⟩ := bind_eq_ok.mp h
  obtain ⟨_, _, h⟩ := bind_eq_ok.mp h
  injection h with h
  subst h
  have h1 : iz.length = 16 := by
    unfold TS.izOf at hi
    split at hi
    · injection hi with hi
      subst hi
      simp; omega
    · cases hi
  have h6 : x.2.length = 6 := by
    unfold TS.addElastic at hx
    split at hx
    · obtain ⟨_, _, hx⟩ := bind_eq_ok.mp hx
      obtain ⟨_, _, hx⟩ := bind_eq_ok.mp hx
      obtain ⟨_, _, hx⟩ := bind_eq_ok.mp hx
      injection hx with hx; subst hx; rfl
    · obtain ⟨_, _, hx⟩ := bind_eq_ok.mp hx
      injection hx with hx; subst hx; rfl
    · obtain ⟨_, _, hx⟩ := bind_eq_ok.mp hx
      obtain ⟨_, _, hx⟩ := bind_eq_ok.mp hx
      injection hx with hx; subst hx; rfl
    · injection hx with hx; subst hx; rfl
  refine ⟨⟨h1, rfl, rfl, ?_⟩, NXS_get _ 0 _ rfl⟩
  simp only [List.length_append, List.length_replicate, List.length_cons, List.length_nil, h6]

theorem regular_arguments {a : Typed.Arguments} {d : TableData} (h : a.data = .ok d) : Regular d := by
  cases a with
  | ce => exact regular_ce h
  | dosimetry => exact regular_dosimetry h
  | photoatomic => exact regular_pa h
  | photonuclear => exact regular_pn h
  | thermal => exact regular_ts h

/-- The data of a table: those of the generic table, with S, Z and A set. -/
theorem content_data {k : TableType} {zaid : Str} {d : TableData} {c : Content} (h : Content.ofTable k zaid d = .ok c) :
    c.data = d ∨ d.setSZA zaid = .ok c.data := by
  cases k <;> simp only [Content.ofTable] at h <;> obtain ⟨t, ht, h⟩ := bind_eq_ok.mp h <;> injection h with h <;> subst h
  · unfold CE.ofTable at ht
    obtain ⟨_, _, ht⟩ := bind_eq_ok.mp ht
    obtain ⟨d', hd, ht⟩ := bind_eq_ok.mp ht
    unfold CE.generateBlocks at ht
    repeat (obtain ⟨_, _, ht⟩ := bind_eq_ok.mp ht)
    injection ht with ht
    subst ht
    exact .inr hd
  · unfold Dosimetry.ofTable Dosimetry.generateBlocks at ht
    repeat (obtain ⟨_, _, ht⟩ := bind_eq_ok.mp ht)
    injection ht with ht
    subst ht
    exact .inl rfl
  · unfold PA.ofTable PA.generateBlocks at ht
    repeat (obtain ⟨_, _, ht⟩ := bind_eq_ok.mp ht)
    injection ht with ht
    subst ht
    exact .inl rfl
  · unfold PN.ofTable at ht
    obtain ⟨_, _, ht⟩ := bind_eq_ok.mp ht
    obtain ⟨d', hd, ht⟩ := bind_eq_ok.mp ht
    unfold PN.generateBlocks at ht
    repeat (obtain ⟨_, _, ht⟩ := bind_eq_ok.mp ht)
    injection ht with ht
    subst ht
    exact .inr hd
  · unfold TS.ofTable TS.generateBlocks at ht
    repeat (obtain ⟨_, _, ht⟩ := bind_eq_ok.mp ht)
    injection ht with ht
    subst ht
    exact .inl rfl

theorem content_regular {k : TableType} {zaid : Str} {d : TableData} {c : Content} (h : Content.ofTable k zaid d = .ok c)
    (hs : d.Sized) (h1 : d.NXS 1 = .ok (d.xss.length : Int)) :
    c.data.Sized ∧ c.data.NXS 1 = .ok (c.data.xss.length : Int) ∧ c.data.iz = d.iz ∧ c.data.aw = d.aw ∧
      c.data.jxs = d.jxs ∧ c.data.xss = d.xss := by
  rcases content_data h with e | e
  · rw [e]; exact ⟨hs, h1, rfl, rfl, rfl, rfl⟩
  · exact nxs1_setSZA e hs h1

end C53

/-- A table made from blocks can be printed and read as far as the sizes of its arrays are concerned: they
have their sizes and NXS(1) is the number of words. -/
theorem C53_made_regular (h : AnyHeader) (a : Typed.Arguments) (t : Typed) (ht : Typed.make h a = .ok t) :
    t.table.data.Sized ∧ t.table.data.NXS 1 = .ok (t.table.data.xss.length : Int) ∧ t.ZAID = h.zaid := by
  unfold Typed.make at ht
  obtain ⟨d, hd, ht⟩ := bind_eq_ok.mp ht
  obtain ⟨e1, e2, _⟩ := C53.ofTable_ok ht
  obtain ⟨r1, r2⟩ := C53.regular_arguments hd
  obtain ⟨q1, q2, _⟩ := C53.content_regular e2 r1 r2
  exact ⟨q1, q2, by unfold Typed.ZAID; rw [e1]⟩

/-! ## Numbers that survive -/

/-- A word of the data that is read as itself from its printed form. -/
def ExactWord (x : Dbl) : Prop := Written std 20 (std.sci 'E' 12 x) x
/-- A value of AW that is read as itself from its printed form. -/
def ExactAW (x : Dbl) : Prop := Written std 11 (std.fixed 7 x) x

/-- Integers up to 13 digits survive. -/
theorem C53_exact_integer (i : Int) (h : i.natAbs < 10 ^ 13) : ExactWord (Dbl.ofInt i) := C51_integer i h

/-- Whatever was read from the printed form of a zero or normal double survives. -/
theorem C53_exact_read (x y : Dbl) (hx : IsNormal x) (h : Written std 20 (std.sci 'E' 12 x) y) : ExactWord y := by
  obtain ⟨z, hz, _, _, he⟩ := C51_word x hx
  have : z = y := by
    have h1 := hz.value
    rw [h.value] at h1
    exact (Option.some.inj h1).symm
  subst this
  unfold ExactWord
  rw [he]
  exact hz

theorem C53_exact_aw (x y : Dbl) (hs : signOf x = false) (hx : IsNormal x) (hm : realOf x ≤ 999)
    (h : Written std 11 (std.fixed 7 x) y) : ExactAW y := by
  obtain ⟨z, hz, _, _, he⟩ := C51_aw x hs hx hm
  have : z = y := by
    have h1 := hz.value
    rw [h.value] at h1
    exact (Option.some.inj h1).symm
  subst this
  unfold ExactAW
  rw [he]
  exact hz

/-- The header of a table fits its columns. -/
inductive HeaderPrintable : AnyHeader → Prop where
  | v1 (h : Header) (hf : HeaderFits h) (hn : NumbersPrintable h.awr h.temp) (hz : h.zaid ≠ [])
      (h0 : ¬ "2.0.0".toList <+: h.zaid) (h1 : ¬ "2.0.1".toList <+: h.zaid) : HeaderPrintable (.v1 h)
  | v2 (h : Header201) (hf : Header201Fits h) (hn : NumbersPrintable h.awr h.temp) : HeaderPrintable (.v2 h)

/-- The same header except for the numbers, which are close. -/
inductive HeaderClose : AnyHeader → AnyHeader → Prop where
  | v1 (h : Header) (awr temp : Dbl) (hn : NumbersClose h.awr h.temp awr temp) :
      HeaderClose (.v1 h) (.v1 { h with awr := awr, temp := temp })
  | v2 (h : Header201) (awr temp : Dbl) (hn : NumbersClose h.awr h.temp awr temp) :
      HeaderClose (.v2 h) (.v2 { h with awr := awr, temp := temp })

/-- What the accessors of close headers give: the same ZAID and date, close numbers. -/
theorem C53_header {h h' : AnyHeader} (hc : HeaderClose h h') :
    h'.zaid = h.zaid ∧ h'.date = h.date ∧ NumbersClose h.awr h.temp h'.awr h'.temp := by
  cases hc with
  | v1 h awr temp hn => exact ⟨rfl, rfl, hn⟩
  | v2 h awr temp hn => exact ⟨rfl, rfl, hn⟩

/-- The integers of the arrays fit their columns and the numbers survive. -/
structure BodyExact (d : TableData) : Prop where
  iz : ∀ i ∈ d.iz, FitsField 7 i
  aw : ∀ x ∈ d.aw, ExactAW x
  nxs : ∀ i ∈ d.nxs, FitsField 9 i
  jxs : ∀ i ∈ d.jxs, FitsField 9 i
  length : FitsField 9 (d.xss.length : Int)
  xss : ∀ x ∈ d.xss, ExactWord x

namespace C53

theorem zip_self {P : Dbl → Prop} {Q : Dbl → Dbl → Prop} (l : Words) (h : ∀ x ∈ l, P x) (hq : ∀ x, P x → Q x x) :
    ∀ p ∈ l.zip l, Q p.1 p.2 := by
  induction l with
  | nil => intro p hp; cases hp
  | cons a l ih =>
    intro p hp
    rw [List.zip_cons_cons, List.mem_cons] at hp
    rcases hp with rfl | hp
    · exact hq a (h a (by simp))
    · exact ih (fun x hx => h x (by simp [hx])) p hp

theorem body_fits {d : TableData} (hs : d.Sized) (h : BodyExact d) : DataFits std d d.aw d.xss :=
  ⟨hs, h.iz, ⟨hs.aw, zip_self (Q := fun x y => Written std 11 (std.fixed 7 x) y) _ h.aw fun _ h => h⟩, h.nxs, h.jxs, h.length, ⟨rfl, zip_self (Q := fun x y => Written std 20 (std.sci 'E' 12 x) y) _ h.xss fun _ h => h⟩⟩

theorem table_fits {h : AnyHeader} {d : TableData} (hh : HeaderPrintable h) (hs : d.Sized)
    (h1 : d.NXS 1 = .ok (d.xss.length : Int)) (hd : BodyExact d) :
    ∃ h', HeaderClose h h' ∧ TableFits std ⟨h, d⟩ ⟨h', d⟩ := by
  cases hh with
  | v1 h hf hn hz h0 h2 =>
    obtain ⟨awr, ha, ha2, ha3, ha4⟩ := C51_awr h.awr hn.awr.1 hn.awr.2.1 hn.awr.2.2
    obtain ⟨temp, ht, ht2, ht3, ht4⟩ := C51_temperature h.temp hn.temp.2
    have pa : awr.isNeg = false := by cases awr <;> simp_all [signOf, Dbl.isNeg]
    have pt : temp.isNeg = false := by
      rw [hn.temp.1] at ht3
      cases temp <;> simp_all [signOf, Dbl.isNeg]
    exact ⟨_, .v1 h awr temp ⟨ha2, ht2⟩, .v1 h d awr temp d.aw d.xss hf (body_fits hs hd) h1 ha ht pa pt hz h0 h2⟩
  | v2 h hf hn =>
    obtain ⟨awr, ha, ha2, ha3, ha4⟩ := C51_awr h.awr hn.awr.1 hn.awr.2.1 hn.awr.2.2
    obtain ⟨temp, ht, ht2, ht3, ht4⟩ := C51_temperature h.temp hn.temp.2
    have pa : awr.isNeg = false := by cases awr <;> simp_all [signOf, Dbl.isNeg]
    have pt : temp.isNeg = false := by
      rw [hn.temp.1] at ht3
      cases temp <;> simp_all [signOf, Dbl.isNeg]
    exact ⟨_, .v2 h awr temp ⟨ha2, ht2⟩, .v2 h d awr temp d.aw d.xss hf (body_fits hs hd) h1 ha ht pa pt⟩

end C53

/-- A table made from blocks of numbers that survive is written to a file; the file is read as a table of the
same class with the same content (the data and all blocks) and a header with close numbers. -/
theorem C53_made (h : AnyHeader) (a : Typed.Arguments) (t : Typed) (ht : Typed.make h a = .ok t)
    (hh : HeaderPrintable h) (hd : BodyExact t.table.data) :
    ∃ text h', t.print std = .ok text ∧ HeaderClose h h' ∧ ∀ rest, ∃ s,
      Table.parse std (text ++ rest) = .ok (s, rest) ∧ Typed.ofTable a.kind s = .ok ⟨h', t.content⟩ := by
  obtain ⟨r1, r2, _⟩ := C53_made_regular h a t ht
  have hc := Constructed.blocks h a t ht
  unfold Typed.make at ht
  obtain ⟨d, _, ht⟩ := bind_eq_ok.mp ht
  obtain ⟨e1, _, e3⟩ := C53.ofTable_ok ht
  obtain ⟨h', c, f⟩ := C53.table_fits hh r1 r2 hd
  have f' : TableFits std t.table ⟨h', t.table.data⟩ := by
    have : t.table = ⟨h, t.table.data⟩ := by
      show (⟨t.header, _⟩ : Table) = _
      rw [e1]
      rfl
    rw [this]
    exact f
  obtain ⟨text, _, hp, _⟩ := C53_file std t hc h' f' []
  refine ⟨text, h', hp, c, ?_⟩
  intro rest
  obtain ⟨text2, s, hp2, h2, h3⟩ := C53_file std t hc h' f' rest
  obtain rfl := Except.ok.inj (hp.symm.trans hp2)
  rw [e3] at h3
  exact ⟨s, h2, h3⟩

/-- Tables with headers are made exactly as the tables of properties C28 to C35: the constructors fail for the
same arguments and give the same content for the ZAID of the header. -/
theorem C53_same (h : AnyHeader) :
    (∀ z a s b, Typed.make h (.ce z a s b) = (CE.mk' h.zaid z a s b).map fun t => ⟨h, .ce t⟩) ∧
    (∀ z a mtr sigd, Typed.make h (.dosimetry z a mtr sigd) =
      (Dosimetry.mk' h.zaid z a mtr sigd).map fun t => ⟨h, .dosimetry t⟩) ∧
    (∀ b, Typed.make h (.photoatomic b) = (PA.mk' h.zaid b).map fun t => ⟨h, .photoatomic t⟩) ∧
    (∀ z a s b, Typed.make h (.photonuclear z a s b) =
      (PN.mk' h.zaid z a s b).map fun t => ⟨h, .photonuclear t⟩) ∧
    (∀ b, Typed.make h (.thermal b) = (TS.mk' h.zaid b).map fun t => ⟨h, .thermal t⟩) := by
  have key : ∀ {α β γ : Type} (r : Res α) (f : α → Res β) (g : β → γ),
      (r >>= fun d => (f d >>= fun c => Except.ok (ε := Err) (g c))) = (r >>= f).map g := by
    intro α β γ r f g
    cases r with
    | error e => rfl
    | ok a =>
      show (f a >>= fun c => Except.ok (g c)) = (f a).map g
      cases f a <;> rfl
  refine ⟨?_, ?_, ?_, ?_, ?_⟩ <;> intros <;>
    simp only [Typed.make, Typed.Arguments.data, Typed.Arguments.kind, Typed.ofTable, Content.ofTable,
      CE.mk', Dosimetry.mk', PA.mk', PN.mk', TS.mk', pure_eq_ok, bind_assoc, ok_bind, key]

/-- Any printable generic table is written to a file, the file is read as a table `t` of a class: this table
is written to a second file and read from it as the same table, header included. (The numbers changed, if at
all, when the first file was written.) -/
theorem C53_second (s : Table) (hs : Printable s) (text : Str) (hp : s.print std = .ok text) (s' : Table)
    (rest : Str) (hr : Table.parse std (text ++ rest) = .ok (s', rest)) (k : TableType) (t : Typed)
    (ht : Typed.ofTable k s' = .ok t) (hn : ∀ i ∈ t.table.data.nxs, FitsField 9 i) :
    ∃ text2, t.print std = .ok text2 ∧ ∀ rest, Table.parse std (text2 ++ rest) = .ok (t.table, rest) ∧
      Typed.ofTable k t.table = .ok t := by
  obtain ⟨e1, e2, e3⟩ := C53.ofTable_ok ht
  have hcopy := (C53_copy t (.table k s' t ht)).1
  unfold Typed.copy at hcopy
  rw [e3] at hcopy
  have key : ∃ t'', TableFits std t.table t'' ∧ t'' = t.table := by
    cases hs with
    | v1 h d hf hnum hz h0 h1 hd =>
      obtain ⟨aw, xss, fits, close, same, sized⟩ := C51.body d hd
      obtain ⟨awr, ha, ha2, ha3, ha4⟩ := C51_awr h.awr hnum.awr.1 hnum.awr.2.1 hnum.awr.2.2
      obtain ⟨temp, hte, ht2, ht3, ht4⟩ := C51_temperature h.temp hnum.temp.2
      have pa : awr.isNeg = false := by cases awr <;> simp_all [signOf, Dbl.isNeg]
      have pt : temp.isNeg = false := by
        rw [hnum.temp.1] at ht3
        cases temp <;> simp_all [signOf, Dbl.isNeg]
      have tf := TableFits.v1 h d awr temp aw xss hf fits hd.first ha hte pa pt hz h0 h1
      obtain ⟨text', hp', hr'⟩ := C41_table std _ _ tf rest
      obtain rfl := Except.ok.inj (hp.symm.trans hp')
      have es := congrArg Prod.fst (Except.ok.inj (hr.symm.trans hr'))
      simp only at es
      subst es
      have reg : TableData.NXS { d with aw := aw, xss := xss } 1 = .ok (xss.length : Int) := by
        rw [fits.xss.1]; exact hd.first
      obtain ⟨q1, q2, q3, q4, q5, q6⟩ := C53.content_regular e2 sized reg
      have hf' : HeaderFits { h with awr := awr, temp := temp } :=
        ⟨hf.zaid, hf.date, hf.title, hf.material, hf.trim, hf.lines⟩
      refine ⟨_, ?_, rfl⟩
      have etab : t.table = ⟨.v1 { h with awr := awr, temp := temp }, t.content.data⟩ := by
        unfold Typed.table; rw [e1]
      have hb : BodyExact t.content.data := by
        refine ⟨by rw [q3]; exact hd.iz, ?_, hn, by rw [q5]; exact hd.jxs, ?_, ?_⟩
        · rw [q4]
          intro y hy
          have la : d.aw.length = aw.length := by rw [hd.sized.aw, fits.aw.1]
          obtain ⟨i, hi, rfl⟩ := List.getElem_of_mem hy
          have hi : i < aw.length := hi
          have := fits.aw.2 (d.aw[i]'(by omega), aw[i]) (by
            rw [List.mem_iff_getElem]
            exact ⟨i, by simp; omega, by simp⟩)
          have hx := hd.aw _ (List.getElem_mem (l := d.aw) (n := i) (by omega))
          exact C53_exact_aw _ _ hx.1 hx.2.1 hx.2.2 this
        · rw [q6]
          show FitsField 9 (xss.length : Int)
          rw [fits.xss.1]
          exact hd.length
        · rw [q6]
          intro y hy
          have la := fits.xss.1
          obtain ⟨i, hi, rfl⟩ := List.getElem_of_mem hy
          have hi : i < xss.length := hi
          have := fits.xss.2 (d.xss[i]'(by omega), xss[i]) (by
            rw [List.mem_iff_getElem]
            exact ⟨i, by simp; omega, by simp⟩)
          exact C53_exact_read _ _ (hd.xss _ (List.getElem_mem (l := d.xss) (n := i) (by omega))) this
      rw [etab]
      refine TableFits.v1 { h with awr := awr, temp := temp } t.content.data awr temp t.content.data.aw t.content.data.xss
        hf' (C53.body_fits q1 hb) q2 ?_ ?_ pa pt hz h0 h1
      · rw [ha4]; exact ha
      · rw [ht4]; exact hte
    | v2 h d hf hnum hd =>
      obtain ⟨aw, xss, fits, close, same, sized⟩ := C51.body d hd
      obtain ⟨awr, ha, ha2, ha3, ha4⟩ := C51_awr h.awr hnum.awr.1 hnum.awr.2.1 hnum.awr.2.2
      obtain ⟨temp, hte, ht2, ht3, ht4⟩ := C51_temperature h.temp hnum.temp.2
      have pa : awr.isNeg = false := by cases awr <;> simp_all [signOf, Dbl.isNeg]
      have pt : temp.isNeg = false := by
        rw [hnum.temp.1] at ht3
        cases temp <;> simp_all [signOf, Dbl.isNeg]
      have tf := TableFits.v2 h d awr temp aw xss hf fits hd.first ha hte pa pt
      obtain ⟨text', hp', hr'⟩ := C41_table std _ _ tf rest
      obtain rfl := Except.ok.inj (hp.symm.trans hp')
      have es := congrArg Prod.fst (Except.ok.inj (hr.symm.trans hr'))
      simp only at es
      subst es
      have reg : TableData.NXS { d with aw := aw, xss := xss } 1 = .ok (xss.length : Int) := by
        rw [fits.xss.1]; exact hd.first
      obtain ⟨q1, q2, q3, q4, q5, q6⟩ := C53.content_regular e2 sized reg
      have hf' : Header201Fits { h with awr := awr, temp := temp } :=
        ⟨hf.version, hf.szaid, hf.source, hf.trim, hf.lines, hf.date, hf.comments, hf.number⟩
      refine ⟨_, ?_, rfl⟩
      have etab : t.table = ⟨.v2 { h with awr := awr, temp := temp }, t.content.data⟩ := by
        unfold Typed.table; rw [e1]
      have hb : BodyExact t.content.data := by
        refine ⟨by rw [q3]; exact hd.iz, ?_, hn, by rw [q5]; exact hd.jxs, ?_, ?_⟩
        · rw [q4]
          intro y hy
          have la : d.aw.length = aw.length := by rw [hd.sized.aw, fits.aw.1]
          obtain ⟨i, hi, rfl⟩ := List.getElem_of_mem hy
          have hi : i < aw.length := hi
          have := fits.aw.2 (d.aw[i]'(by omega), aw[i]) (by
            rw [List.mem_iff_getElem]
            exact ⟨i, by simp; omega, by simp⟩)
          have hx := hd.aw _ (List.getElem_mem (l := d.aw) (n := i) (by omega))
          exact C53_exact_aw _ _ hx.1 hx.2.1 hx.2.2 this
        · rw [q6]
          show FitsField 9 (xss.length : Int)
          rw [fits.xss.1]
          exact hd.length
        · rw [q6]
          intro y hy
          have la := fits.xss.1
          obtain ⟨i, hi, rfl⟩ := List.getElem_of_mem hy
          have hi : i < xss.length := hi
          have := fits.xss.2 (d.xss[i]'(by omega), xss[i]) (by
            rw [List.mem_iff_getElem]
            exact ⟨i, by simp; omega, by simp⟩)
          exact C53_exact_read _ _ (hd.xss _ (List.getElem_mem (l := d.xss) (n := i) (by omega))) this
      rw [etab]
      refine TableFits.v2 { h with awr := awr, temp := temp } t.content.data awr temp t.content.data.aw t.content.data.xss
        hf' (C53.body_fits q1 hb) q2 ?_ ?_ pa pt
      · rw [ha4]; exact ha
      · rw [ht4]; exact hte
  obtain ⟨t'', f, rfl⟩ := key
  have := C41_table std _ _ f
  obtain ⟨text2, hp2, _⟩ := this []
  refine ⟨text2, hp2, fun rest => ⟨?_, hcopy⟩⟩
  obtain ⟨text3, hp3, hr3⟩ := this rest
  obtain rfl := Except.ok.inj (hp2.symm.trans hp3)
  exact hr3

/-! ## Examples -/

namespace C53

/-- A whole number with up to 13 digits. -/
def whole : Dbl → Bool
  | .fin neg m 0 => decide (m < 10 ^ 13) && (!neg || m != 0)
  | _ => false

theorem whole_exact {x : Dbl} (h : whole x = true) : ExactWord x := by
  cases x with
  | inf s => cases h
  | nan => cases h
  | fin neg m e =>
    cases e with
    | negSucc n => cases h
    | ofNat n =>
      cases n with
      | succ n => cases h
      | zero =>
        have h : (decide (m < 10 ^ 13) && (!neg || m != 0)) = true := h
        simp only [Bool.and_eq_true, decide_eq_true_eq, Bool.or_eq_true, Bool.not_eq_true'] at h
        have e : Dbl.fin neg m (Int.ofNat 0) = Dbl.ofInt (if neg then -(m : Int) else m) := by
          unfold Dbl.ofInt
          cases neg with
          | false => simp
          | true =>
            have : m ≠ 0 := by rcases h.2 with h | h <;> simp_all
            simp; omega
        rw [e]
        refine C53_exact_integer _ ?_
        cases neg <;> simp <;> exact h.1

/-- A body of whole numbers that fits its columns. -/
def plain (d : TableData) : Bool :=
  d.iz.all (fun i => decide ((Text.ofInt i).length ≤ 7)) && d.aw.all (fun x => x == num 0 || x == num 1) &&
    d.nxs.all (fun i => decide ((Text.ofInt i).length ≤ 9)) && d.jxs.all (fun i => decide ((Text.ofInt i).length ≤ 9)) &&
    decide ((Text.ofInt d.xss.length).length ≤ 9) && d.xss.all whole

theorem aw_zero : ExactAW (num 0) := ⟨by decide +kernel, by decide +kernel, by decide +kernel, by decide +kernel⟩
theorem aw_one : ExactAW (num 1) := ⟨by decide +kernel, by decide +kernel, by decide +kernel, by decide +kernel⟩

theorem plain_exact {d : TableData} (h : plain d = true) : BodyExact d := by
  simp only [plain, Bool.and_eq_true, List.all_eq_true, decide_eq_true_eq, Bool.or_eq_true, beq_iff_eq] at h
  obtain ⟨⟨⟨⟨⟨h1, h2⟩, h3⟩, h4⟩, h5⟩, h6⟩ := h
  refine ⟨h1, ?_, h3, h4, h5, fun x hx => whole_exact (h6 x hx)⟩
  intro x hx
  rcases h2 x hx with rfl | rfl
  · exact aw_zero
  · exact aw_one

/-- A header with this ZAID. -/
def header (zaid : Str) : Header := Header.mk' zaid exAwr exTemp "12/19/12".toList "a title".toList "mat9228".toList

theorem header_date : (strip "12/19/12".toList).length ≤ 10 ∧ '\n' ∉ strip "12/19/12".toList := by decide +kernel
theorem header_title : (strip "a title".toList).length ≤ 70 ∧ '\n' ∉ strip "a title".toList := by decide +kernel
theorem header_mat : (strip "mat9228".toList).length ≤ 10 ∧ '\n' ∉ strip "mat9228".toList := by decide +kernel

theorem header_printable (zaid : Str) (h : (strip zaid).length ≤ 10) (hl : '\n' ∉ strip zaid) (h0 : strip zaid ≠ [])
    (h1 : ¬ "2.0.0".toList <+: strip zaid) (h2 : ¬ "2.0.1".toList <+: strip zaid) :
    HeaderPrintable (.v1 (header zaid)) :=
  .v1 _ ⟨h, header_date.1, header_title.1, header_mat.1, C38_trimmed _ _ _ _ _ _,
    ⟨hl, header_date.2, header_title.2, header_mat.2⟩⟩ C51.exNumbers h0 h1 h2

/-- Written and read again. -/
def Survives (t : Typed) (k : TableType) : Prop :=
  ∃ text h', t.print std = .ok text ∧ HeaderClose t.header h' ∧ ∀ rest, ∃ s,
    Table.parse std (text ++ rest) = .ok (s, rest) ∧ Typed.ofTable k s = .ok ⟨h', t.content⟩

/-- Whether a table can be made from blocks and its body is of whole numbers. -/
def check (zaid : Str) (a : Typed.Arguments) : Bool :=
  match Typed.make (.v1 (header zaid)) a with
  | .ok t => plain t.table.data && !t.table.data.xss.isEmpty
  | .error _ => false

theorem survives {zaid : Str} {a : Typed.Arguments} (h : check zaid a = true) (hh : HeaderPrintable (.v1 (header zaid))) :
    ∃ t, Typed.make (.v1 (header zaid)) a = .ok t ∧ Survives t a.kind := by
  unfold check at h
  split at h
  · next t ht =>
    simp only [Bool.and_eq_true] at h
    refine ⟨t, ht, ?_⟩
    obtain ⟨text, h', q1, q2, q3⟩ := C53_made _ _ _ ht hh (plain_exact h.1)
    refine ⟨text, h', q1, ?_, q3⟩
    have : t.header = .v1 (header zaid) := by
      unfold Typed.make at ht
      obtain ⟨d, _, ht⟩ := bind_eq_ok.mp ht
      exact (ofTable_ok ht).1
    rw [this]
    exact q2
  · cases h

end C53

/-- C53_same for a dosimetry table that can be made. -/
example : ∃ t, Dosimetry.mk' "26056.10y".toList 26 56 (made (MTR.mk' [16, 107])) (made (SIGD.mk' exSigd)) = .ok t ∧
    Typed.make (.v1 (C53.header "26056.10y".toList))
      (.dosimetry 26 56 (made (MTR.mk' [16, 107])) (made (SIGD.mk' exSigd))) =
      .ok ⟨.v1 (C53.header "26056.10y".toList), .dosimetry t⟩ := by
  obtain ⟨t, h, _⟩ := C35_blocks "26056.10y".toList 26 56 [16, 107] exSigd
    (made (MTR.mk' [16, 107])) (made (SIGD.mk' exSigd)) (by decide +kernel) (by decide +kernel)
    (by decide) (by decide) (by decide) (by decide +kernel)
  refine ⟨t, h, ?_⟩
  rw [(C53_same _).2.1]
  show (Dosimetry.mk' "26056.10y".toList 26 56 _ _).map _ = _
  rw [h]
  rfl

/-- A continuous energy table. -/
example : ∃ t, Typed.make (.v1 (C53.header "92235.80c".toList)) (.ce 92 235 0 exBlocks.input) = .ok t ∧
    C53.Survives t .continuousEnergy :=
  C53.survives (by decide +kernel) (C53.header_printable _ (by decide +kernel) (by decide +kernel) (by decide +kernel)
    (by decide +kernel) (by decide +kernel))

/-- A dosimetry table. -/
example : ∃ t, Typed.make (.v1 (C53.header "26056.10y".toList))
      (.dosimetry 26 56 (made (MTR.mk' [16, 107])) (made (SIGD.mk' exSigd))) = .ok t ∧ C53.Survives t .dosimetry :=
  C53.survives (by decide +kernel) (C53.header_printable _ (by decide +kernel) (by decide +kernel) (by decide +kernel)
    (by decide +kernel) (by decide +kernel))

/-- A photoatomic table with all blocks. -/
example : ∃ t, Typed.make (.v1 (C53.header "1000.12p".toList)) (.photoatomic C32.exAll.input) = .ok t ∧
    C53.Survives t .photoatomic :=
  C53.survives (by decide +kernel) (C53.header_printable _ (by decide +kernel) (by decide +kernel) (by decide +kernel)
    (by decide +kernel) (by decide +kernel))

/-- A photonuclear table with two secondary particles. -/
example : ∃ t, Typed.make (.v1 (C53.header "92235.70u".toList)) (.photonuclear 92 235 0 (exPNBlocks [1, 9]).input) = .ok t ∧
    C53.Survives t .photonuclear :=
  C53.survives (by decide +kernel) (C53.header_printable _ (by decide +kernel) (by decide +kernel) (by decide +kernel)
    (by decide +kernel) (by decide +kernel))

/-- A thermal table with elastic scattering. -/
example : ∃ t, Typed.make (.v1 (C53.header "lwtr.10t".toList))
      (.thermal ⟨[1001], exXS, made (ITXE.mkPlain exDCos true 1), some exXS, some exCosines, none, none⟩) = .ok t ∧
    C53.Survives t .thermal :=
  C53.survives (by decide +kernel) (C53.header_printable _ (by decide +kernel) (by decide +kernel) (by decide +kernel)
    (by decide +kernel) (by decide +kernel))

/-- A copy of a continuous energy table. -/
example : ∃ t, Typed.make (.v1 (C53.header "92235.80c".toList)) (.ce 92 235 0 exBlocks.input) = .ok t ∧
    t.copy = .ok t ∧ t.assign = .ok t := by
  obtain ⟨t, h, _⟩ := C53.survives (zaid := "92235.80c".toList) (a := .ce 92 235 0 exBlocks.input) (by decide +kernel)
    (C53.header_printable _ (by decide +kernel) (by decide +kernel) (by decide +kernel) (by decide +kernel) (by decide +kernel))
  exact ⟨t, h, C53_copy t (.blocks _ _ t h)⟩

namespace C53

theorem whole_normal {x : Dbl} (h : whole x = true) : IsNormal x := by
  cases x with
  | inf s => cases h
  | nan => cases h
  | fin neg m e =>
    cases e with
    | negSucc n => cases h
    | ofNat n =>
      cases n with
      | succ n => cases h
      | zero =>
        have h : (decide (m < 10 ^ 13) && (!neg || m != 0)) = true := h
        simp only [Bool.and_eq_true, decide_eq_true_eq] at h
        exact C51.normal_of _ _ _ (lt_trans h.1 (by decide)) (by decide) (by decide)

theorem plain_printable {d : TableData} (h : plain d = true) (hs : d.Sized)
    (h1 : d.NXS 1 = .ok (d.xss.length : Int)) : BodyPrintable d := by
  have e := plain_exact h
  simp only [plain, Bool.and_eq_true, List.all_eq_true, decide_eq_true_eq, Bool.or_eq_true, beq_iff_eq] at h
  obtain ⟨⟨⟨⟨⟨_, h2⟩, _⟩, _⟩, _⟩, h6⟩ := h
  refine ⟨hs, e.iz, ?_, e.nxs, e.jxs, e.length, fun x hx => whole_normal (h6 x hx), h1⟩
  intro x hx
  rcases h2 x hx with rfl | rfl
  · exact ⟨rfl, C51.normal_of _ _ _ (by decide) (by decide) (by decide), by norm_num [realOf, num, Dbl.ofNat, Dbl.ofInt]⟩
  · exact ⟨rfl, C51.normal_of _ _ _ (by decide) (by decide) (by decide), by norm_num [realOf, num, Dbl.ofNat, Dbl.ofInt]⟩

/-- The hypotheses of `C53_second` are those of a table that was written and read. -/
theorem second {zaid : Str} {a : Typed.Arguments} (h : check zaid a = true) (hh : HeaderPrintable (.v1 (header zaid))) :
    ∃ s text s' t, Printable s ∧ s.print std = .ok text ∧ Table.parse std (text ++ []) = .ok (s', []) ∧
      Typed.ofTable a.kind s' = .ok t ∧ ∀ i ∈ t.table.data.nxs, FitsField 9 i := by
  unfold check at h
  split at h
  · next t ht =>
    simp only [Bool.and_eq_true] at h
    obtain ⟨r1, r2, _⟩ := C53_made_regular _ _ _ ht
    obtain ⟨text, h', q1, _, q3⟩ := C53_made _ _ _ ht hh (plain_exact h.1)
    obtain ⟨s', p1, p2⟩ := q3 []
    have e : t.header = .v1 (header zaid) := by
      unfold Typed.make at ht
      obtain ⟨d, _, ht⟩ := bind_eq_ok.mp ht
      exact (ofTable_ok ht).1
    refine ⟨t.table, text, s', ⟨h', t.content⟩, ?_, q1, p1, p2, (plain_exact h.1).nxs⟩
    have : t.table = ⟨.v1 (header zaid), t.table.data⟩ := by
      show (⟨t.header, _⟩ : Table) = _
      rw [e]
      rfl
    rw [this]
    cases hh with
    | v1 _ hf hn hz h0 h1 => exact .v1 _ _ hf hn hz h0 h1 (plain_printable h.1 r1 r2)
  · cases h

end C53

/-- The second file of a continuous energy table. -/
example : ∃ t text2, t.kind = .continuousEnergy ∧ t.print std = .ok text2 ∧
    ∀ rest, Table.parse std (text2 ++ rest) = .ok (t.table, rest) ∧ Typed.ofTable .continuousEnergy t.table = .ok t := by
  obtain ⟨s, text, s', t, h1, h2, h3, h4, h5⟩ := C53.second (zaid := "92235.80c".toList)
    (a := .ce 92 235 0 exBlocks.input) (by decide +kernel)
    (C53.header_printable _ (by decide +kernel) (by decide +kernel) (by decide +kernel) (by decide +kernel) (by decide +kernel))
  obtain ⟨text2, q⟩ := C53_second s h1 text h2 s' [] h3 _ t h4 h5
  exact ⟨t, text2, (C53.ofTable_ok h4).2.2, q⟩

/-- The words 2⁻⁴⁰ and so on are not exact; what they are read as is. -/
example : ¬ ExactWord (.fin false 1 (-40)) ∧ ExactWord (.fin false 9007199254740712 (-93)) := by
  have hx : IsNormal (.fin false 1 (-40)) := C51.normal_of _ _ _ (by decide) (by decide) (by decide)
  have hv : std.value (std.sci 'E' 12 (.fin false 1 (-40))) = some (.fin false 9007199254740712 (-93)) := by
    decide +kernel
  refine ⟨fun h => ?_, ?_⟩
  · have := h.value
    rw [hv] at this
    cases this
  · obtain ⟨y, hy, _⟩ := C51_word _ hx
    have : y = .fin false 9007199254740712 (-93) := by
      have := hy.value
      rw [hv] at this
      exact (Option.some.inj this).symm
    subst this
    exact C53_exact_read _ _ hx hy

end ACE.Props
