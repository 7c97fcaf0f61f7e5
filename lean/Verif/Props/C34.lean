import Verif.Lemmas.ThermalTable

/-!
# C34: a thermal scattering table returns the blocks it was made from

The elastic blocks come in four combinations (`Elastic`); the constructor accepts any combination of
optional blocks and loses those that are not one of these (`C34_lost_cosines`), or reads through an
empty optional (`C34_missing_cosines`).
-/

namespace ACE.Props
open ACE

/-- The combinations of elastic scattering blocks. -/
inductive Elastic where
  | none
  | incoherent (itcei : ITIE) (itcai : ITCA)
  | coherent (itce : ITIE) (itca : Option ITCA)
  | mixed (itce : ITIE) (itca : Option ITCA) (itcei : ITIE) (itcai : ITCA)

namespace Elastic
/-- Coherent elastic cross sections. -/
def itce : Elastic → Option ITIE
  | .coherent a _ => some a
  | .mixed a _ _ _ => some a
  | _ => Option.none
/-- Coherent elastic cosines. -/
def itca : Elastic → Option ITCA
  | .coherent _ b => b
  | .mixed _ b _ _ => b
  | _ => Option.none
/-- Incoherent elastic cross sections. -/
def itcei : Elastic → Option ITIE
  | .incoherent a _ => some a
  | .mixed _ _ a _ => some a
  | _ => Option.none
/-- Incoherent elastic cosines. -/
def itcai : Elastic → Option ITCA
  | .incoherent _ b => some b
  | .mixed _ _ _ b => some b
  | _ => Option.none
/-- The elastic scattering mode: 3 incoherent, 4 coherent, 5 both. -/
def mode : Elastic → Nat
  | .none => 0
  | .incoherent _ _ => 3
  | .coherent _ _ => 4
  | .mixed _ _ _ _ => 5
/-- One less than the number of cosines, so -1 when there are none. -/
def dim : Option ITCA → Int
  | some b => (b.n : Int) - 1
  | Option.none => -1
/-- The first dimensioning parameter. -/
def ncl : Elastic → Int
  | .none => 0
  | .incoherent _ b => dim (some b)
  | .coherent _ b => dim b
  | .mixed _ b _ _ => dim b
/-- The second dimensioning parameter. -/
def ncli : Elastic → Int
  | .mixed _ _ _ b => dim (some b)
  | _ => 0
/-- The number of words. -/
def size : Elastic → Nat
  | .none => 0
  | .incoherent a b => a.xss.length + b.xss.length
  | .coherent a b => a.xss.length + (b.map (·.xss.length)).getD 0
  | .mixed a b c d => a.xss.length + (b.map (·.xss.length)).getD 0 + c.xss.length + d.xss.length

/-- Blocks made by their constructors: cosines for each energy; coherent elastic scattering has one
or more cosines for each energy or no such block. -/
def Sound : Elastic → Prop
  | .none => True
  | .incoherent a b => ∃ ne, TS.MadeXS a ne ∧ TS.MadeCosines b ne
  | .coherent a b => ∃ ne, TS.MadeXS a ne ∧ ∀ x, b = some x → TS.MadeCosines x ne ∧ 1 ≤ x.n ∧ 1 ≤ ne
  | .mixed a b c d => (∃ ne, TS.MadeXS a ne ∧
      ∀ x, b = some x → TS.MadeCosines x ne ∧ 1 ≤ x.n ∧ 1 ≤ ne) ∧
      ∃ ne, TS.MadeXS c ne ∧ TS.MadeCosines d ne
end Elastic

/-- The arguments of the constructor. -/
def tsInput (za : List Nat) (itie : ITIE) (itxe : ITXE) (E : Elastic) : TS.Input :=
  ⟨za, itie, itxe, E.itce, E.itca, E.itcei, E.itcai⟩

/-- The blocks and parameters of the table are those given. -/
structure TSReturned (numbers : List Nat) (b1 : ITIE) (b3 : ITXE) (E : Elastic) (t : TS) : Prop where
  itie : t.itie = b1
  itxe : t.itxe = b3
  itce : t.itce = E.itce
  itca : t.itca = E.itca
  itcei : t.itcei = E.itcei
  itcai : t.itcai = E.itcai
  idpni : t.IDPNI = .ok 3
  idpnc : t.IDPNC = .ok E.mode
  ncl : t.NCL = .ok E.ncl
  ncli : t.NCLI = .ok E.ncli
  ifeng : t.IFENG = .ok b3.IFENG
  nieb : if b3.IFENG < 2 then t.NIEB = b3.NIEB 1 else t.NIEB = .ok 0
  nil : 1 ≤ b3.NC → t.NIL = .ok b3.NIL
  za : ∀ i (h : i < numbers.length), t.data.IZ (i + 1) = .ok (numbers[i] : Int)

namespace C34

/-- The data made from the words of the elastic blocks and the locators. -/
def dataOf (za : List Nat) (itie : ITIE) (itxe : ITXE) (ne nieb : Nat) (E : Elastic) (xs : Words)
    (js : List Int) : TableData where
  iz := za.map (fun v : Nat => (v : Int)) ++ List.replicate (16 - za.length) 0
  aw := List.replicate 16 (Dbl.ofNat 0)
  nxs := [(xs.length : Int), 3, (if itxe.IFENG < 2 then (itxe.nc : Int) - 1 else itxe.nc + 1),
    (nieb : Int), (E.mode : Int), E.ncl, (itxe.IFENG : Int), E.ncli, 0, 0, 0, 0, 0, 0, 0, 0]
  jxs := [1, ((1 + ne + 1 : Nat) : Int), ((itie.xss.length + 1 : Nat) : Int)] ++ js ++
    List.replicate 23 0
  xss := xs

/-- The elastic part. -/
def words (E : Elastic) (x2 : Words) : Words :=
  match E with
  | .none => x2
  | .incoherent a b => x2 ++ a.xss ++ b.xss
  | .coherent a b => x2 ++ a.xss ++ (b.map (·.xss)).getD []
  | .mixed a b c d => x2 ++ a.xss ++ (b.map (·.xss)).getD [] ++ c.xss ++ d.xss

/-- A locator after some words. -/
def after (w : Words) : Int := ((w.length + 1 : Nat) : Int)

/-- JXS(4) to JXS(9); `ne1` and `ne2` are the numbers of energies. -/
def locs (E : Elastic) (x2 : Words) (ne1 ne2 : Nat) : List Int :=
  match E with
  | .none => [0, 0, 0, 0, 0, 0]
  | .incoherent a _ => [after x2, ((x2.length + 1 + ne2 + 1 : Nat) : Int), after (x2 ++ a.xss), 0, 0, 0]
  | .coherent a b => [after x2, ((x2.length + 1 + ne1 + 1 : Nat) : Int),
      (match b with | some _ => after (x2 ++ a.xss) | Option.none => 0), 0, 0, 0]
  | .mixed a b c _ =>
      let x6 := x2 ++ a.xss ++ (b.map (·.xss)).getD []
      [after x2, ((x2.length + 1 + ne1 + 1 : Nat) : Int),
        (match b with | some _ => after (x2 ++ a.xss) | Option.none => 0),
        after x6, ((x6.length + 1 + ne2 + 1 : Nat) : Int), after (x6 ++ c.xss)]

theorem words_ne {x : ITCA} {ne : Nat} (h : TS.MadeCosines x ne) (h1 : 1 ≤ x.n) (h2 : 1 ≤ ne) :
    x.xss ≠ [] := by
  have := (TS.cosines_facts h).2
  intro e
  rw [e] at this
  have := Nat.mul_pos h2 h1
  simp at *
  omega

theorem options_eq (za : List Nat) (itie : ITIE) (itxe : ITXE) (E : Elastic) :
    TS.options (tsInput za itie itxe E) = .ok (E.mode, E.ncl, E.ncli) := by
  cases E with
  | none => rfl
  | incoherent a b => rfl
  | coherent a b => cases b <;> rfl
  | mixed a b c d => cases b <;> rfl

theorem elastic_eq (za : List Nat) (itie : ITIE) (itxe : ITXE) (E : Elastic) (hE : E.Sound)
    (x2 : Words) : ∃ ne1 ne2, (∀ a, E.itce = some a → TS.MadeXS a ne1) ∧
      (∀ a, E.itcei = some a → TS.MadeXS a ne2) ∧ TS.addElastic x2 (tsInput za itie itxe E) =
      .ok (words E x2, locs E x2 ne1 ne2) := by
  cases E with
  | none => exact ⟨0, 0, (fun _ h => by cases h), (fun _ h => by cases h), rfl⟩
  | incoherent a b =>
    obtain ⟨ne, ha, hb⟩ := hE
    refine ⟨0, ne, (fun _ h => by cases h), (fun _ h => by cases h; exact ha), ?_⟩
    simp only [TS.addElastic, tsInput, Elastic.itce, Elastic.itcei, Elastic.itcai, TS.addXS,
      (TS.xs_facts ha).2.1, TS.deref, ok_bind, pure_eq_ok, words, locs, after]
  | coherent a b =>
    obtain ⟨ne, ha, hb⟩ := hE
    refine ⟨ne, 0, (fun _ h => by cases h; exact ha), (fun _ h => by cases h), ?_⟩
    cases b with
    | none =>
      simp only [TS.addElastic, tsInput, Elastic.itce, Elastic.itcei, Elastic.itca, TS.addXS,
        (TS.xs_facts ha).2.1, TS.addCosines, ok_bind, pure_eq_ok, words, locs, after]
      simp
    | some x =>
      obtain ⟨h1, h2, h3⟩ := hb x rfl
      have hne := words_ne h1 h2 h3
      simp only [TS.addElastic, tsInput, Elastic.itce, Elastic.itcei, Elastic.itca, TS.addXS,
        (TS.xs_facts ha).2.1, TS.addCosines, ok_bind, pure_eq_ok, words, locs, after, if_neg hne]
      simp
  | mixed a b c d =>
    obtain ⟨⟨ne, ha, hb⟩, ne2, hc, hd⟩ := hE
    refine ⟨ne, ne2, (fun _ h => by cases h; exact ha), (fun _ h => by cases h; exact hc), ?_⟩
    cases b with
    | none =>
      simp only [TS.addElastic, tsInput, Elastic.itce, Elastic.itcei, Elastic.itca, Elastic.itcai,
        TS.addXS, (TS.xs_facts ha).2.1, (TS.xs_facts hc).2.1, TS.addCosines, TS.deref, ok_bind,
        pure_eq_ok, words, locs, after]
      simp
    | some x =>
      obtain ⟨h1, h2, h3⟩ := hb x rfl
      have hne := words_ne h1 h2 h3
      simp only [TS.addElastic, tsInput, Elastic.itce, Elastic.itcei, Elastic.itca, Elastic.itcai,
        TS.addXS, (TS.xs_facts ha).2.1, (TS.xs_facts hc).2.1, TS.addCosines, TS.deref, ok_bind,
        pure_eq_ok, words, locs, after, if_neg hne]
      simp

theorem generateData_eq (za : List Nat) (itie : ITIE) (itxe : ITXE) (E : Elastic) (ne nieb : Nat)
    (hza : za.length ≤ 16) (hi : TS.MadeXS itie ne) (hE : E.Sound) (hn : itxe.NE = ne)
    (hb : TS.niebOf itxe = .ok nieb) : ∃ ne1 ne2, (∀ a, E.itce = some a → TS.MadeXS a ne1) ∧
    (∀ a, E.itcei = some a → TS.MadeXS a ne2) ∧
    TS.generateData (tsInput za itie itxe E) =
      .ok (dataOf za itie itxe ne nieb E (words E (itie.xss ++ itxe.xss))
        (locs E (itie.xss ++ itxe.xss) ne1 ne2)) := by
  obtain ⟨ne1, ne2, h1, h2, h⟩ := elastic_eq za itie itxe E hE (itie.xss ++ itxe.xss)
  refine ⟨ne1, ne2, h1, h2, ?_⟩
  unfold TS.generateData TS.izOf
  have e1 : (tsInput za itie itxe E).za = za := rfl
  have e2 : (tsInput za itie itxe E).itie = itie := rfl
  have e3 : (tsInput za itie itxe E).itxe = itxe := rfl
  rw [e1, e2, e3, if_pos hza, ok_bind, (TS.xs_facts hi).2.1, ok_bind, options_eq, ok_bind,
    guardThrow_eq_ok.mpr (by simp [hn]), ok_bind]
  simp only [h, hb, ok_bind, pure_eq_ok]
  rfl

section
variable {za : List Nat} {itie : ITIE} {itxe : ITXE} {ne nieb : Nat} {E : Elastic}

theorem locs_length (E : Elastic) (x2 : Words) (ne1 ne2 : Nat) : (locs E x2 ne1 ne2).length = 6 := by
  cases E <;> rfl

theorem words_prefix (E : Elastic) (x2 : Words) : ∃ r, words E x2 = x2 ++ r := by
  cases E with
  | none => exact ⟨[], by simp [words]⟩
  | incoherent a b => exact ⟨_, by simp only [words, List.append_assoc]; rfl⟩
  | coherent a b => exact ⟨_, by simp only [words, List.append_assoc]; rfl⟩
  | mixed a b c d => exact ⟨_, by simp only [words, List.append_assoc]; rfl⟩

theorem block1 {js : List Int} {xs r : Words} (hx : xs = itie.xss ++ r) (hf : FitsN (xs.length + 1)) :
    ∃ q, TS.block (dataOf za itie itxe ne nieb E xs js) 1 = .ok q ∧
      (dataOf za itie itxe ne nieb E xs js).words q = .ok itie.xss := by
  refine TS.block_some (a := []) (b := itie.xss) (c := r) (v := itie.xss.length + 1)
    (JXS_get _ 0 _ rfl) (show xs = _ from by simpa using hx) hf ?_ (by simp)
  exact TS.find_hit (by simp) (by
    have : xs.length = itie.xss.length + r.length := by rw [hx]; simp
    unfold FitsN at *; omega)

theorem block3 {xs : Words} {ne1 ne2 : Nat} (hx : xs = words E (itie.xss ++ itxe.xss))
    (hf : FitsN (xs.length + 1)) :
    ∃ q, TS.block (dataOf za itie itxe ne nieb E xs (locs E (itie.xss ++ itxe.xss) ne1 ne2)) 3 = .ok q ∧
      (dataOf za itie itxe ne nieb E xs (locs E (itie.xss ++ itxe.xss) ne1 ne2)).words q =
        .ok itxe.xss := by
  obtain ⟨r, hr⟩ := words_prefix E (itie.xss ++ itxe.xss)
  have hl : xs.length = (itie.xss ++ itxe.xss).length + r.length := by rw [hx, hr]; simp; omega
  by_cases hE : E = .none
  · subst hE
    exact TS.block_none (a := itie.xss) (b := itxe.xss) (JXS_get _ 2 _ rfl) hx hf
      (TS.find_zeros (k := 29) (by omega))
  · refine TS.block_some (a := itie.xss) (b := itxe.xss) (c := r)
      (v := (itie.xss ++ itxe.xss).length + 1) (JXS_get _ 2 _ rfl) (by rw [← hr]; exact hx) hf ?_ rfl
    have e : (dataOf za itie itxe ne nieb E xs (locs E (itie.xss ++ itxe.xss) ne1 ne2)).jxs.drop
        (TS.scanFrom 3) = (((itie.xss ++ itxe.xss).length + 1 : Nat) : Int) ::
          ((locs E (itie.xss ++ itxe.xss) ne1 ne2).drop 1 ++ List.replicate 23 0) := by
      cases E with
      | none => exact absurd rfl hE
      | incoherent a b => rfl
      | coherent a b => rfl
      | mixed a b c d => rfl
    rw [e]
    exact TS.find_hit (by simp) (by unfold FitsN at *; omega)

/-- The incoherent elastic blocks on their own. -/
theorem incoherent_read {a : ITIE} {b : ITCA} {m ne1 ne2 : Nat} (ha : TS.MadeXS a m)
    (hb : TS.MadeCosines b m) {xs : Words} (x2 : Words) (hx : xs = x2 ++ a.xss ++ b.xss)
    (hf : FitsN (xs.length + 1)) :
    TS.readIncoherent (dataOf za itie itxe ne nieb (.incoherent a b) xs
      (locs (.incoherent a b) x2 ne1 ne2)) 3 = .ok (a, b) := by
  have hl : xs.length = x2.length + a.xss.length + b.xss.length := by rw [hx]; simp; omega
  refine TS.readIncoherent_eq ha hb ?_ ?_ rfl
  · refine TS.block_some (i := 4) (a := x2) (b := a.xss) (c := b.xss) (v := (x2 ++ a.xss).length + 1)
      (JXS_get _ 3 _ rfl) hx hf ?_ rfl
    exact TS.find_hit (by simp) (by unfold FitsN at *; simp; omega)
  · exact TS.block_none (i := 6) (a := x2 ++ a.xss) (b := b.xss) (JXS_get _ 5 _ rfl) hx hf
      (TS.find_zeros (k := 26) (by omega))

theorem coherent_read {a : ITIE} {b : Option ITCA} {m ne1 ne2 : Nat} (ha : TS.MadeXS a m)
    (hb : ∀ x, b = some x → TS.MadeCosines x m ∧ 1 ≤ x.n ∧ 1 ≤ m) {xs : Words} (x2 : Words)
    (hx : xs = x2 ++ a.xss ++ (b.map (·.xss)).getD []) (hf : FitsN (xs.length + 1)) :
    TS.readCoherent (dataOf za itie itxe ne nieb (.coherent a b) xs
      (locs (.coherent a b) x2 ne1 ne2)) = .ok (a, b) := by
  cases b with
  | none =>
    refine TS.readCoherent_none ha ?_ rfl
    exact TS.block_none (i := 4) (a := x2) (b := a.xss) (JXS_get _ 3 _ rfl) (show xs = _ from by simpa using hx) hf
      (TS.find_zeros (k := 27) (by omega))
  | some x =>
    obtain ⟨h1, h2, h3⟩ := hb x rfl
    have hl : xs.length = x2.length + a.xss.length + x.xss.length := by rw [hx]; simp; omega
    refine TS.readCoherent_some ha h1 h2 ?_ ?_ rfl
    · refine TS.block_some (i := 4) (a := x2) (b := a.xss) (c := x.xss)
        (v := (x2 ++ a.xss).length + 1) (JXS_get _ 3 _ rfl) hx hf ?_ rfl
      exact TS.find_hit (by simp) (by unfold FitsN at *; simp; omega)
    · exact TS.block_none (i := 6) (a := x2 ++ a.xss) (b := x.xss) (JXS_get _ 5 _ rfl) hx hf
        (TS.find_zeros (k := 26) (by omega))

theorem mixed_read {a c : ITIE} {b : Option ITCA} {f : ITCA} {m k ne1 ne2 : Nat} (ha : TS.MadeXS a m)
    (hb : ∀ x, b = some x → TS.MadeCosines x m ∧ 1 ≤ x.n ∧ 1 ≤ m) (hc : TS.MadeXS c k)
    (hd : TS.MadeCosines f k) {xs : Words} (x2 : Words)
    (hx : xs = x2 ++ a.xss ++ (b.map (·.xss)).getD [] ++ c.xss ++ f.xss) (hf : FitsN (xs.length + 1)) :
    TS.readCoherent (dataOf za itie itxe ne nieb (.mixed a b c f) xs
      (locs (.mixed a b c f) x2 ne1 ne2)) = .ok (a, b) ∧
    TS.readIncoherent (dataOf za itie itxe ne nieb (.mixed a b c f) xs
      (locs (.mixed a b c f) x2 ne1 ne2)) 5 = .ok (c, f) := by
  have hl : xs.length = x2.length + a.xss.length + ((b.map (·.xss)).getD []).length +
      c.xss.length + f.xss.length := by rw [hx]; simp; omega
  refine ⟨?_, ?_⟩
  · cases b with
    | none =>
      refine TS.readCoherent_none ha ?_ rfl
      refine TS.block_some (i := 4) (a := x2) (b := a.xss) (c := c.xss ++ f.xss)
        (v := (x2 ++ a.xss).length + 1) (JXS_get _ 3 _ rfl) (show xs = _ from by rw [hx]; simp) hf ?_ rfl
      have e : (dataOf za itie itxe ne nieb (.mixed a none c f) xs
          (locs (.mixed a none c f) x2 ne1 ne2)).jxs.drop (TS.scanFrom 4) =
          0 :: (((x2 ++ a.xss ++ []).length + 1 : Nat) : Int) ::
            ((locs (.mixed a none c f) x2 ne1 ne2).drop 4 ++ List.replicate 23 0) := rfl
      rw [e, TS.find_zero (by omega), List.append_nil]
      exact TS.find_hit (by simp) (by unfold FitsN at *; simp; omega)
    | some x =>
      obtain ⟨h1, h2, h3⟩ := hb x rfl
      simp only [Option.map_some, Option.getD_some] at hx hl
      refine TS.readCoherent_some ha h1 h2 ?_ ?_ rfl
      · refine TS.block_some (i := 4) (a := x2) (b := a.xss) (c := x.xss ++ (c.xss ++ f.xss))
          (v := (x2 ++ a.xss).length + 1) (JXS_get _ 3 _ rfl) (show xs = _ from by rw [hx]; simp) hf ?_ rfl
        exact TS.find_hit (by simp) (by unfold FitsN at *; simp; omega)
      · refine TS.block_some (i := 6) (a := x2 ++ a.xss) (b := x.xss) (c := c.xss ++ f.xss)
          (v := (x2 ++ a.xss ++ x.xss).length + 1) (JXS_get _ 5 _ rfl) (show xs = _ from by rw [hx]; simp) hf ?_ rfl
        exact TS.find_hit (by simp) (by unfold FitsN at *; simp; omega)
  · refine TS.readIncoherent_eq hc hd ?_ ?_ rfl
    · refine TS.block_some (i := 7) (a := x2 ++ a.xss ++ (b.map (·.xss)).getD []) (b := c.xss)
        (c := f.xss) (v := (x2 ++ a.xss ++ (b.map (·.xss)).getD [] ++ c.xss).length + 1)
        (JXS_get _ 6 _ rfl) hx hf ?_ rfl
      exact TS.find_hit (by simp) (by unfold FitsN at *; simp; omega)
    · exact TS.block_none (i := 9) (a := x2 ++ a.xss ++ (b.map (·.xss)).getD [] ++ c.xss) (b := f.xss)
        (JXS_get _ 8 _ rfl) hx hf (TS.find_zeros (k := 23) (by omega))

/-- The optional blocks. -/
theorem elastic_read {xs : Words} {ne1 ne2 : Nat} (hE : E.Sound)
    (hx : xs = words E (itie.xss ++ itxe.xss)) (hf : FitsN (xs.length + 1)) :
    ∃ c i, CE.onlyIf (decide (E.mode > 3)) (TS.readCoherent (dataOf za itie itxe ne nieb E xs
        (locs E (itie.xss ++ itxe.xss) ne1 ne2))) = .ok c ∧
      CE.onlyIf (decide (E.mode = 3 ∨ E.mode = 5)) (TS.readIncoherent (dataOf za itie itxe ne nieb E xs
        (locs E (itie.xss ++ itxe.xss) ne1 ne2)) E.mode) = .ok i ∧
      c.map (·.1) = E.itce ∧ c.bind (·.2) = E.itca ∧ i.map (·.1) = E.itcei ∧ i.map (·.2) = E.itcai := by
  cases E with
  | none => exact ⟨none, none, rfl, rfl, rfl, rfl, rfl, rfl⟩
  | incoherent a b =>
    obtain ⟨m, ha, hb⟩ := hE
    refine ⟨none, some (a, b), rfl, ?_, rfl, rfl, rfl, rfl⟩
    have := incoherent_read (za := za) (itie := itie) (itxe := itxe) (ne := ne) (nieb := nieb)
      (ne1 := ne1) (ne2 := ne2) ha hb _ hx hf
    simp only [Elastic.mode] at *
    rw [this]; rfl
  | coherent a b =>
    obtain ⟨m, ha, hb⟩ := hE
    refine ⟨some (a, b), none, ?_, rfl, rfl, rfl, rfl, rfl⟩
    rw [coherent_read ha hb _ hx hf]; rfl
  | mixed a b c d =>
    obtain ⟨⟨m, ha, hb⟩, k, hc, hd⟩ := hE
    have := mixed_read (za := za) (itie := itie) (itxe := itxe) (ne := ne) (nieb := nieb)
      (ne1 := ne1) (ne2 := ne2) ha hb hc hd _ hx hf
    refine ⟨some (a, b), some (c, d), ?_, ?_, rfl, rfl, rfl, rfl⟩
    · rw [this.1]; rfl
    · simp only [Elastic.mode] at *
      rw [this.2]; rfl

theorem dim_bounds {x : ITCA} {m : Nat} (h : TS.MadeCosines x m) :
    -1 ≤ Elastic.dim (some x) ∧ Elastic.dim (some x) < 2147483648 := by
  obtain ⟨_, _, _, hf⟩ := h
  unfold FitsN at hf
  simp only [Elastic.dim]
  omega

theorem ncl_bounds (hE : E.Sound) : (-1 ≤ E.ncl ∧ E.ncl < 2147483648) ∧
    (-1 ≤ E.ncli ∧ E.ncli < 2147483648) := by
  cases E with
  | none => decide
  | incoherent a b =>
    obtain ⟨m, ha, hb⟩ := hE
    exact ⟨dim_bounds hb, by simp only [Elastic.ncli]; omega⟩
  | coherent a b =>
    obtain ⟨m, ha, hb⟩ := hE
    refine ⟨?_, by simp only [Elastic.ncli]; omega⟩
    cases b with
    | none => simp only [Elastic.ncl, Elastic.dim]; omega
    | some x => exact dim_bounds (hb x rfl).1
  | mixed a b c d =>
    obtain ⟨⟨m, ha, hb⟩, k, hc, hd⟩ := hE
    refine ⟨?_, dim_bounds hd⟩
    cases b with
    | none => simp only [Elastic.ncl, Elastic.dim]; omega
    | some x => exact dim_bounds (hb x rfl).1

theorem words_size (E : Elastic) (x : Words) : (words E x).length = x.length + E.size := by
  cases E with
  | none => simp [words, Elastic.size]
  | incoherent a b => simp [words, Elastic.size]
  | coherent a b => cases b <;> simp [words, Elastic.size] <;> try omega
  | mixed a b c d => cases b <;> simp [words, Elastic.size] <;> try omega

end
end C34

/-- What is read from the data. -/
theorem C34.generateBlocks_eq (zaid : List Char) (za : List Nat) (itie : ITIE) (itxe r : ITXE) (E : Elastic)
    (ne nieb ne1 ne2 : Nat) (hi : TS.MadeXS itie ne) (hE : E.Sound)
    (hb : ¬ itxe.IFENG < 2 → nieb = 0)
    (hfb : FitsN nieb) (hfc : FitsN (itxe.nc + 1)) (hfi : FitsN itxe.IFENG)
    (hr : ITXE.ofRange itxe.IFENG nieb itxe.nc ne (itie.xss.length + 1) itxe.xss = .ok r)
    (hf : FitsN (itie.xss.length + itxe.xss.length + E.size + 1)) (d : TableData)
    (hd : C34.dataOf za itie itxe ne nieb E (C34.words E (itie.xss ++ itxe.xss))
      (C34.locs E (itie.xss ++ itxe.xss) ne1 ne2) = d) :
    TS.generateBlocks zaid d = .ok ⟨zaid, d, itie, r, E.itce, E.itca, E.itcei, E.itcai⟩ ∧
      d.count 5 = .ok E.mode := by
  have hl : (C34.words E (itie.xss ++ itxe.xss)).length = itie.xss.length + itxe.xss.length + E.size := by
    rw [C34.words_size]; simp
  have hfx : FitsN ((C34.words E (itie.xss ++ itxe.xss)).length + 1) := by rw [hl]; exact hf
  generalize hxs : C34.words E (itie.xss ++ itxe.xss) = xs at *
  obtain ⟨w, hw⟩ := C34.words_prefix E (itie.xss ++ itxe.xss)
  obtain ⟨c, i, e1, e2, e3, e4, e5, e6⟩ := C34.elastic_read (za := za) (ne := ne) (nieb := nieb)
    (ne1 := ne1) (ne2 := ne2) hE hxs.symm hfx
  have b1 := C34.block1 (za := za) (itie := itie) (itxe := itxe) (ne := ne) (nieb := nieb) (E := E)
    (js := C34.locs E (itie.xss ++ itxe.xss) ne1 ne2) (xs := xs) (r := itxe.xss ++ w)
    (by rw [← hxs, hw]; simp) hfx
  have b3 := C34.block3 (za := za) (itie := itie) (itxe := itxe) (ne := ne) (nieb := nieb) (E := E)
    (ne1 := ne1) (ne2 := ne2) hxs.symm hfx
  rw [hd] at b1 b3 e1 e2
  have r1 := TS.readITIE_eq hi b1
  have hfl : FitsN (itie.xss.length + 1) := by unfold FitsN at *; omega
  have r3 : TS.readITXE d true itie = .ok r :=
    TS.readITXE_eq (nieb := nieb) (loc := itie.xss.length + 1) hi b3 (by rw [← hd]; rfl)
      (by rw [← hd]; rfl) (by rw [← hd]; rfl) (JXS_get d 2 _ (by rw [← hd]; rfl)) hfl hfb hfc hfi hb hr
  have j1 : d.JXS 1 = .ok 1 := JXS_get d 0 _ (by rw [← hd]; rfl)
  have hm : FitsN E.mode := by
    unfold FitsN
    cases E <;> simp [Elastic.mode]
  have c5 : d.count 5 = .ok E.mode := TS.count_get (i := 4) (by rw [← hd]; rfl) hm
  refine ⟨?_, c5⟩
  unfold TS.generateBlocks
  simp only [j1, ok_bind, r1, r3, c5, e1, e2, pure_eq_ok, e3, e4, e5, e6,
    show decide ((1 : Int) > 0) = true from rfl]

/-- The general case: the table has the inelastic distributions `r` that the words of the block give
when they are read at the place where the table puts them. -/
theorem C34_general (zaid : List Char) (za : List Nat) (itie : ITIE) (itxe r : ITXE) (E : Elastic)
    (ne nieb : Nat) (ht : TableType.thermal.verifyType zaid = .ok ()) (hza : za.length ≤ 16)
    (hi : TS.MadeXS itie ne) (hE : E.Sound) (hn : itxe.NE = ne) (hb : TS.niebOf itxe = .ok nieb)
    (hfb : FitsN nieb) (hfc : FitsN (itxe.nc + 1)) (hfi : FitsN itxe.IFENG)
    (hr : ITXE.ofRange itxe.IFENG nieb itxe.nc ne (itie.xss.length + 1) itxe.xss = .ok r)
    (hf : FitsN (itie.xss.length + itxe.xss.length + E.size + 1)) :
    ∃ t, TS.mk' zaid (tsInput za itie itxe E) = .ok t ∧ t.zaid = zaid ∧ TSReturned za itie r E t := by
  obtain ⟨ne1, ne2, _, _, hg⟩ := C34.generateData_eq za itie itxe E ne nieb hza hi hE hn hb
  unfold TS.mk' TS.ofTable
  rw [hg, ok_bind, ht, ok_bind]
  generalize hd : C34.dataOf za itie itxe ne nieb E _ _ = d at *
  obtain ⟨hread, c5⟩ := C34.generateBlocks_eq zaid za itie itxe r E ne nieb ne1 ne2 hi hE (by
        intro h
        unfold TS.niebOf at hb
        rw [if_neg h] at hb
        injection hb with hb
        exact hb.symm) hfb hfc hfi hr hf d hd
  have hri : r.IFENG = itxe.IFENG := by
    unfold ITXE.ofRange at hr
    obtain ⟨_, _, hr⟩ := bind_eq_ok.mp hr
    obtain ⟨_, _, hr⟩ := bind_eq_ok.mp hr
    injection hr with hr
    rw [← hr]; rfl
  have hrb : (itxe.IFENG < 2 → r.nieb = some nieb) ∧ r.nc = itxe.nc := by
    unfold ITXE.ofRange at hr
    obtain ⟨_, _, hr⟩ := bind_eq_ok.mp hr
    obtain ⟨_, _, hr⟩ := bind_eq_ok.mp hr
    injection hr with hr
    rw [← hr]
    exact ⟨fun h => if_pos h, rfl⟩
  obtain ⟨n1, n2⟩ := C34.ncl_bounds hE
  refine ⟨⟨zaid, d, itie, r, E.itce, E.itca, E.itcei, E.itcai⟩, hread, rfl, ?_⟩
  · constructor
    · rfl
    · rfl
    · rfl
    · rfl
    · rfl
    · rfl
    · exact TS.count_get (i := 1) (v := 3) (by rw [← hd]; rfl) (by decide)
    · exact c5
    · exact TS.signed_get (i := 5) (by rw [← hd]; rfl) n1.1 n1.2
    · exact TS.signed_get (i := 7) (by rw [← hd]; rfl) n2.1 n2.2
    · show d.count 7 = _
      rw [hri]
      exact TS.count_get (i := 6) (by rw [← hd]; rfl) hfi
    · have hnb : d.count 4 = .ok nieb := TS.count_get (i := 3) (by rw [← hd]; rfl) hfb
      split
      · rename_i h
        show d.count 4 = ITXE.NIEBof r.xss r.nieb r.ne 1
        rw [hnb, hrb.1 (hri ▸ h)]
        rfl
      · rename_i h
        unfold TS.niebOf at hb
        rw [if_neg (hri ▸ h)] at hb
        injection hb with hb
        show d.count 4 = .ok 0
        rw [hnb, hb]
    · intro h
      show d.count 3 = _
      have hnc : r.nc = itxe.nc := hrb.2
      have h : 1 ≤ r.nc := h
      have e : r.NIL = if itxe.IFENG < 2 then itxe.nc - 1 else itxe.nc + 1 := by
        unfold ITXE.NIL
        rw [show r.ifeng = itxe.IFENG from hri, hnc]
        unfold sizeOfInt
        split <;> omega
      rw [e]
      refine TS.count_get (i := 2) ?_ (by split <;> omega)
      rw [← hd]
      show some (if itxe.IFENG < 2 then (itxe.nc : Int) - 1 else itxe.nc + 1) = _
      split <;> congr 1 <;> omega
    · intro k h
      refine TableData.fetch_get d.iz k _ ?_
      rw [← hd]
      show (za.map (fun v : Nat => (v : Int)) ++ List.replicate (16 - za.length) 0)[k]? = _
      rw [List.getElem?_append_left (by simpa using h)]
      simp [h]

/-- Reading does not change the words. -/
theorem itxe_words {ifeng nieb nc ne locb : Nat} {xs : Words} {r : ITXE}
    (h : ITXE.ofRange ifeng nieb nc ne locb xs = .ok r) : r.xss = xs := by
  unfold ITXE.ofRange at h
  obtain ⟨_, _, h⟩ := bind_eq_ok.mp h
  obtain ⟨_, _, h⟩ := bind_eq_ok.mp h
  injection h with h
  rw [← h]

/-- With discrete cosines (any base location): the blocks, the elastic mode, the dimensioning
parameters and the targets all come back. -/
theorem C34_discrete_partial (zaid : List Char) (za : List Nat) (itie : ITIE) (E : Elastic)
    (vss : List (List PlainSpec)) (css : List (List DCos)) (skewed : Bool) (locb nc nieb : Nat)
    (hm : vss.mapM (fun vs => vs.mapM fun v => DCos.mk' v.1 v.2) = .ok css)
    (hne : vss ≠ []) (h0 : 1 ≤ nieb) (hb : ∀ vs ∈ vss, vs.length = nieb)
    (hn : ∀ vs ∈ vss, ∀ v ∈ vs, v.2.length = nc) (h1 : 1 ≤ nc)
    (ht : TableType.thermal.verifyType zaid = .ok ()) (hza : za.length ≤ 16)
    (hi : TS.MadeXS itie vss.length) (hE : E.Sound) (hfb : FitsN nieb) (hfc : FitsN (nc + 1))
    (hf : FitsN (itie.xss.length + (plainAll vss).length + E.size + 1)) :
    ∃ itxe t, ITXE.mkPlain css skewed locb = .ok itxe ∧
      TS.mk' zaid (tsInput za itie itxe E) = .ok t ∧ t.zaid = zaid ∧
      t.itxe.xss = itxe.xss ∧ TSReturned za itie t.itxe E t ∧
      ItxeGives itxe (if skewed then 1 else 0) nc (nc - 1) vss IsPlain ∧
      ItxeGives t.itxe (if skewed then 1 else 0) nc (nc - 1) vss IsPlain := by
  obtain ⟨b, hb1, hb2, hb3, hb4⟩ := C27_discrete_partial vss css skewed locb nc nieb hm hne h0 hb hn
    (by unfold FitsN at *; omega) h1
  obtain ⟨r, hr, hr'⟩ := hb4 (itie.xss.length + 1) []
  rw [List.append_nil] at hr
  have hlt : (if skewed = true then 1 else 0) < 2 := by cases skewed <;> decide
  have hN : TS.niebOf b = .ok nieb := by
    unfold TS.niebOf
    rw [hb3.1, if_pos hlt]
    have hpos : 0 < vss.length := List.length_pos_iff.mpr hne
    rw [(hb3.2.2.2.2.1 0 hpos).1, hb _ (List.getElem_mem _)]
  have hbn : b.nc = nc := hb3.2.1
  obtain ⟨t, t1, tz, t2⟩ := C34_general zaid za itie b r E vss.length nieb ht hza hi hE hb3.2.2.2.1 hN hfb
    (by rw [hbn]; exact hfc) (by rw [hb3.1]; unfold FitsN; omega)
    (by rw [hb3.1, hbn]; exact hr) (by rw [hb2]; exact hf)
  have e := t2.itxe
  subst e
  exact ⟨b, t, hb1, t1, tz, itxe_words hr, t2, hb3, hr'⟩

/-- With probabilities, the inelastic block has to be built for the location it gets in the table:
one after the words of the cross section block. -/
theorem C34_probability_partial (zaid : List Char) (za : List Nat) (itie : ITIE) (E : Elastic)
    (vss : List (List CosProbSpec)) (css : List (List PCos)) (locb nc : Nat)
    (hm : vss.mapM (fun vs => vs.mapM fun v => PCos.mk' v.1 v.2.1 v.2.2.1 v.2.2.2) = .ok css)
    (vs0 : List CosProbSpec) (v0 : CosProbSpec) (hhead : vss.head? = some (v0 :: vs0))
    (hloc : locb = itie.xss.length + 1) (hn : ∀ vs ∈ vss, ∀ v ∈ vs, v.2.2.2.length = nc)
    (hcnt : ∀ vs ∈ vss, FitsN (vs.length + 1)) (hfc : FitsN (nc + 1))
    (ht : TableType.thermal.verifyType zaid = .ok ()) (hza : za.length ≤ 16)
    (hi : TS.MadeXS itie vss.length) (hE : E.Sound)
    (hf : FitsN (itie.xss.length + (itxeWords locb vss).length + E.size + 1)) :
    ∃ itxe t, ITXE.mkProb css locb = .ok itxe ∧
      TS.mk' zaid (tsInput za itie itxe E) = .ok t ∧ t.zaid = zaid ∧
      t.itxe.xss = itxe.xss ∧ TSReturned za itie t.itxe E t ∧
      ItxeGives itxe 2 nc (nc + 1) vss IsCosProb ∧ ItxeGives t.itxe 2 nc (nc + 1) vss IsCosProb := by
  obtain ⟨b, hb1, hb2, hb3, hb4⟩ := C27_probability_partial vss css locb nc hm vs0 v0 hhead (by omega)
    hn (by unfold FitsN at *; omega) hcnt hfc
  obtain ⟨r, hr, hr'⟩ := hb4 0 []
  rw [List.append_nil, hloc] at hr
  have hN : TS.niebOf b = .ok 0 := by
    unfold TS.niebOf
    rw [hb3.1, if_neg (by omega)]
  have hbn : b.nc = nc := hb3.2.1
  obtain ⟨t, t1, tz, t2⟩ := C34_general zaid za itie b r E vss.length 0 ht hza hi hE hb3.2.2.2.1 hN
    (by decide) (by rw [hbn]; exact hfc) (by rw [hb3.1]; decide)
    (by rw [hb3.1, hbn]; exact hr) (by rw [hb2]; exact hf)
  have e := t2.itxe
  subst e
  exact ⟨b, t, hb1, t1, tz, itxe_words hr, t2, hb3, hr'⟩

/-- Cross sections and distributions for different numbers of incident energies are refused, for
every combination of elastic blocks for which the parameters are defined. -/
theorem C34_refused (zaid : List Char) (b : TS.Input) (ne : Nat) (hza : b.za.length ≤ 16)
    (hi : TS.MadeXS b.itie ne) (hn : b.itxe.NE ≠ ne) (ho : b.itcei ≠ none → b.itcai ≠ none) :
    TS.mk' zaid b = .error .thrown := by
  have h : ∃ o, TS.options b = .ok o := by
    obtain ⟨za, itie, itxe, itce, itca, itcei, itcai⟩ := b
    simp only at ho
    cases itcei with
    | none => cases itce <;> exact ⟨_, rfl⟩
    | some x =>
      cases itcai with
      | none => exact absurd rfl (ho (by simp))
      | some y => cases itce <;> exact ⟨_, rfl⟩
  obtain ⟨o, h⟩ := h
  unfold TS.mk' TS.generateData TS.izOf
  have hg : guardThrow (!(ne != b.itxe.NE)) = .error .thrown := by
    have : (!(ne != b.itxe.NE)) = false := by simpa using fun h => hn h.symm
    rw [this]; rfl
  simp only [if_pos hza, (TS.xs_facts hi).2.1, h, ok_bind, hg, error_bind]

/-! ## Where the property fails -/

/-- Cosines for coherent elastic scattering without the cross sections are lost, silently: the table
is the one made without them. -/
theorem C34_lost_cosines (zaid : List Char) (b : TS.Input) (h : b.itce = none) (c : Option ITCA) :
    TS.mk' zaid { b with itca := c } = TS.mk' zaid b := by
  obtain ⟨za, itie, itxe, itce, itca, itcei, itcai⟩ := b
  simp only at h
  subst h
  cases itcei <;> rfl

/-- Cosines for incoherent elastic scattering without the cross sections are lost, silently. -/
theorem C34_lost_incoherent (zaid : List Char) (b : TS.Input) (h : b.itcei = none) (c : Option ITCA) :
    TS.mk' zaid { b with itcai := c } = TS.mk' zaid b := by
  obtain ⟨za, itie, itxe, itce, itca, itcei, itcai⟩ := b
  simp only at h
  subst h
  cases itce <;> rfl

/-- Incoherent elastic cross sections without cosines: an empty optional is read. -/
theorem C34_missing_cosines (zaid : List Char) (b : TS.Input) (ne : Nat) (hza : b.za.length ≤ 16)
    (hi : TS.MadeXS b.itie ne) (h : b.itcei ≠ none) (hc : b.itcai = none) :
    TS.mk' zaid b = .error .ub := by
  obtain ⟨za, itie, itxe, itce, itca, itcei, itcai⟩ := b
  simp only at h hc hza hi
  subst hc
  cases itcei with
  | none => exact absurd rfl h
  | some x =>
    unfold TS.mk' TS.generateData TS.izOf
    simp only [if_pos hza, (TS.xs_facts hi).2.1, ok_bind]
    cases itce <;> rfl

/-- More than 16 targets: undefined behaviour, not refused. -/
theorem C34_targets (zaid : List Char) (b : TS.Input) (h : 16 < b.za.length) :
    TS.mk' zaid b = .error .ub := by
  unfold TS.mk' TS.generateData TS.izOf
  rw [if_neg (by omega)]
  rfl

/-! ## Concrete cases -/

instance : Inhabited ITXE := ⟨⟨[], 0, 0, none, 0, 0, []⟩⟩

/-- Cross sections at two energies. -/
def exXS : ITIE := made (ITIE.mk' [num 1, num 2] [num 3, num 4])
/-- Two cosines at each of two energies. -/
def exCosines : ITCA := made (ITCA.mk' [[num 5, num 6], [num 7, num 8]])
/-- Two incident energies, two outgoing energies, one cosine. -/
def exPlain : List (List PlainSpec) :=
  [[(num 11, [num 12]), (num 13, [num 14])], [(num 15, [num 16]), (num 17, [num 18])]]
/-- The same with probabilities and a different number of outgoing energies. -/
def exProb : List (List CosProbSpec) :=
  [[(num 11, num 1, num 2, [num 12]), (num 13, num 1, num 2, [num 14])],
   [(num 15, num 1, num 2, [num 16])]]
/-- Entries with cosines. -/
def exDCos : List (List DCos) := made (exPlain.mapM (fun vs => vs.mapM fun v => DCos.mk' v.1 v.2))
/-- Entries with probabilities. -/
def exPCos : List (List PCos) :=
  made (exProb.mapM (fun vs => vs.mapM fun v => PCos.mk' v.1 v.2.1 v.2.2.1 v.2.2.2))

theorem exXS_made : TS.MadeXS exXS 2 := ⟨[num 1, num 2], [num 3, num 4], by decide +kernel, rfl, by decide⟩
theorem exCosines_made : TS.MadeCosines exCosines 2 :=
  ⟨[[num 5, num 6], [num 7, num 8]], by decide +kernel, rfl, by decide +kernel⟩

/-- Both kinds of elastic scattering. -/
def exElastic : Elastic := .mixed exXS (some exCosines) exXS exCosines

theorem exElastic_sound : exElastic.Sound :=
  ⟨⟨2, exXS_made, fun x h => by
    injection h with h; subst h
    exact ⟨exCosines_made, by decide +kernel, by decide⟩⟩, 2, exXS_made, exCosines_made⟩

/-- C34 with discrete cosines and mixed elastic scattering. -/
example : ∃ itxe t, ITXE.mkPlain exDCos true 1 = .ok itxe ∧
    TS.mk' "lwtr.10t".toList (tsInput [1001, 8016] exXS itxe exElastic) = .ok t ∧
    t.itie = exXS ∧ t.itca = some exCosines ∧ t.itcai = some exCosines ∧ t.IDPNC = .ok 5 ∧
    t.NCLI = .ok 1 := by
  obtain ⟨itxe, t, h1, h2, _, _, h3, _⟩ := C34_discrete_partial "lwtr.10t".toList [1001, 8016] exXS
    exElastic exPlain exDCos true 1 1 2 (by decide +kernel) (by decide) (by decide)
    (by decide +kernel) (by decide +kernel) (by decide) (by decide +kernel) (by decide) exXS_made
    exElastic_sound (by decide) (by decide) (by decide +kernel)
  exact ⟨itxe, t, h1, h2, h3.itie, h3.itca, h3.itcai, h3.idpnc, h3.ncli⟩

/-- C34 with probabilities and incoherent elastic scattering. -/
example : ∃ itxe t, ITXE.mkProb exPCos 6 = .ok itxe ∧
    TS.mk' "lwtr.10t".toList (tsInput [1001] exXS itxe (.incoherent exXS exCosines)) = .ok t ∧
    t.itcei = some exXS ∧ t.itce = none ∧ t.IDPNC = .ok 3 ∧ t.NCL = .ok 1 := by
  obtain ⟨itxe, t, h1, h2, _, _, h3, _⟩ := C34_probability_partial "lwtr.10t".toList [1001] exXS
    (.incoherent exXS exCosines) exProb exPCos 6 1 (by decide +kernel) _ _ rfl (by decide +kernel)
    (by decide +kernel) (by decide +kernel) (by decide) (by decide +kernel) (by decide) exXS_made
    ⟨2, exXS_made, exCosines_made⟩ (by decide +kernel)
  exact ⟨itxe, t, h1, h2, h3.itcei, h3.itce, h3.idpnc, h3.ncl⟩

example : TS.mk' "lwtr.10t".toList (tsInput [1001] (made (ITIE.mk' [num 1] [num 3]))
    (made (ITXE.mkPlain exDCos true 1)) exElastic) = .error .thrown :=
  C34_refused _ _ 1 (by decide) ⟨[num 1], [num 3], by decide +kernel, rfl, by decide⟩ (by decide +kernel)
    (fun _ => by simp [tsInput, exElastic, Elastic.itcai])

/-- The energy of the first entry of a block with probabilities. -/
def firstEnergy (b : ITXE) : Res Dbl := do
  match ← b.get 1 1 with
  | .plain d => d.energy
  | .prob d => d.energy

/-- A block with probabilities built for another location than it gets (the location it gets here is
6): with the default base location the table is refused; with base location 5 it is accepted, and the
first outgoing energy, 11, comes back as the number 1 (the second number of outgoing energies). -/
theorem C34_locb :
    (made (ITXE.mkProb exPCos 1)).NE = 2 ∧
    TS.mk' "lwtr.10t".toList (tsInput [1001] exXS (made (ITXE.mkProb exPCos 1)) .none) =
      .error .range ∧
    (do let b ← ITXE.mkProb exPCos 5
        let t ← TS.mk' "lwtr.10t".toList (tsInput [1001] exXS b .none)
        return ((← firstEnergy b), (← firstEnergy t.itxe))) = .ok (num 11, num 1) := by
  refine ⟨?_, ?_, ?_⟩ <;> decide +kernel

/-- An empty block of cosines is lost. -/
theorem C34_empty_cosines :
    (do let c ← ITCA.mk' [[], []]
        let b ← ITXE.mkPlain exDCos true 1
        let t ← TS.mk' "lwtr.10t".toList ⟨[1001], exXS, b, some exXS, some c, none, none⟩
        return (t.itca, t.IDPNC)) = .ok (none, .ok 4) := by decide +kernel

/-- Coherent elastic cosines for another number of energies than the cross sections are accepted;
half of them are not given back. -/
theorem C34_unchecked_cosines :
    (do let c ← ITCA.mk' [[num 5], [num 6], [num 7], [num 8]]
        let b ← ITXE.mkPlain exDCos true 1
        let t ← TS.mk' "lwtr.10t".toList ⟨[1001], exXS, b, some exXS, some c, none, none⟩
        return (c.m, t.itca.map (fun x : ITCA => x.NE))) = .ok (4, some 2) := by decide +kernel

/-- The full statement: whatever is given to the constructor, it refuses or gives back. -/
def C34Statement : Prop := ∀ (zaid : List Char) (b : TS.Input),
  TS.mk' zaid b = .error .thrown ∨ ∃ t, TS.mk' zaid b = .ok t ∧ t.itie = b.itie ∧
    t.itxe.xss = b.itxe.xss ∧ t.itce = b.itce ∧ t.itca = b.itca ∧ t.itcei = b.itcei ∧ t.itcai = b.itcai

/-- It does not hold. -/
theorem C34_false : ¬ C34Statement := by
  intro h
  rcases h "lwtr.10t".toList ⟨[1001], exXS, made (ITXE.mkPlain exDCos true 1), none,
    some exCosines, none, none⟩ with h | ⟨t, h, _, _, _, h4, _⟩
  · revert h; decide +kernel
  · have : (TS.mk' "lwtr.10t".toList ⟨[1001], exXS, made (ITXE.mkPlain exDCos true 1), none,
      some exCosines, none, none⟩).map (fun t => t.itca) = .ok none := by decide +kernel
    rw [h] at this
    injection this with this
    have h5 : t.itca = none := this
    rw [h5] at h4
    cases h4

/-- The hypotheses of the other theorems are met too. -/
example := C34_lost_cosines "lwtr.10t".toList (tsInput [1001] exXS (made (ITXE.mkPlain exDCos true 1)) .none) rfl (some exCosines)
example := C34_lost_incoherent "lwtr.10t".toList (tsInput [1001] exXS (made (ITXE.mkPlain exDCos true 1)) .none) rfl (some exCosines)
example := C34_missing_cosines "lwtr.10t".toList
  { tsInput [1001] exXS (made (ITXE.mkPlain exDCos true 1)) .none with itcei := some exXS } 2 (by decide) exXS_made (by simp) rfl
example := C34_targets "lwtr.10t".toList (tsInput (List.replicate 17 1001) exXS (made (ITXE.mkPlain exDCos true 1)) .none) (by decide)

end ACE.Props
