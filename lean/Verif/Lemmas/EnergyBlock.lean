import Verif.Lemmas.Located
import Verif.Model.EnergyBlock

/-! # Helper lemmas about DLW blocks -/

namespace ACE.DLW

/-- Multiplicity and words of the distribution of one reaction. -/
abbrev Parts := List (Mult × Words)

/-- All words of a reaction. -/
def part (a : Mult × Words) : Words := multWords a.1 ++ a.2

/-- The locators, `k` words of the data part come before. -/
def locs (k : Nat) : Parts → Words
  | [] => []
  | a :: p => Dbl.ofNat (k + (multWords a.1).length + 1) :: locs (k + (part a).length) p

/-- The multiplicities in the TYR block. -/
def tyrs (k : Nat) : Parts → List Nat
  | [] => []
  | a :: p => tyrOf k a.1 :: tyrs (k + (part a).length) p

/-- The distributions are placed at their locators. -/
def Placed : Nat → List (EnergyData × Mult) → Parts → Prop
  | _, [], [] => True
  | k, (d, m) :: l, a :: p => a.1 = m ∧ d.placed (k + (multWords m).length + 1) = .ok a.2 ∧
      Placed (k + (part a).length) l p
  | _, _, _ => False

@[simp] theorem locs_length (k : Nat) (p : Parts) : (locs k p).length = p.length := by
  induction p generalizing k with
  | nil => rfl
  | cons a p ih => simp [locs, ih]

@[simp] theorem tyrs_length (k : Nat) (p : Parts) : (tyrs k p).length = p.length := by
  induction p generalizing k with
  | nil => rfl
  | cons a p ih => simp [tyrs, ih]

theorem locs_getElem (k : Nat) (p : Parts) (i : Nat) (h : i < (locs k p).length)
    (h' : i < p.length) :
    (locs k p)[i] = Dbl.ofNat (k + startOf (p.map part) i + (multWords p[i].1).length + 1) := by
  induction p generalizing k i with
  | nil => simp at h'
  | cons a p ih =>
    cases i with
    | zero => simp [locs]
    | succ i =>
      simp only [locs, List.getElem_cons_succ]
      rw [ih _ _ _ (by simpa using h')]
      simp [startOf, Nat.add_assoc]

theorem tyrs_getElem (k : Nat) (p : Parts) (i : Nat) (h : i < (tyrs k p).length)
    (h' : i < p.length) :
    (tyrs k p)[i] = tyrOf (k + startOf (p.map part) i) p[i].1 := by
  induction p generalizing k i with
  | nil => simp at h'
  | cons a p ih =>
    cases i with
    | zero => simp [tyrs]
    | succ i =>
      simp only [tyrs, List.getElem_cons_succ]
      rw [ih _ _ _ (by simpa using h')]
      simp [startOf, Nat.add_assoc]

theorem Placed.length {k : Nat} {l : List (EnergyData × Mult)} {p : Parts} (h : Placed k l p) :
    p.length = l.length := by
  induction l generalizing k p with
  | nil => cases p with
    | nil => rfl
    | cons => exact h.elim
  | cons e l ih => cases p with
    | nil => exact h.elim
    | cons a p => obtain ⟨d, m⟩ := e; simp [ih h.2.2]

theorem Placed.get {k : Nat} {l : List (EnergyData × Mult)} {p : Parts} (h : Placed k l p)
    (i : Nat) (hi : i < l.length) (hp : i < p.length) :
    p[i].1 = l[i].2 ∧
    l[i].1.placed (k + startOf (p.map part) i + (multWords l[i].2).length + 1) = .ok p[i].2 := by
  induction l generalizing k p i with
  | nil => simp at hi
  | cons e l ih => cases p with
    | nil => exact h.elim
    | cons a p =>
      obtain ⟨d, m⟩ := e
      cases i with
      | zero => simpa using ⟨h.1, h.2.1⟩
      | succ i =>
        have := ih h.2.2 i (by simpa using hi) (by simpa using hp)
        simpa [startOf, Nat.add_assoc] using this

theorem placed_exists (len : EnergyData → Nat) (l : List (EnergyData × Mult)) (k : Nat)
    (h : ∀ e ∈ l, ∀ loc, FitsN (loc + len e.1 + 1) →
      ∃ w, e.1.placed loc = .ok w ∧ w.length = len e.1)
    (hf : FitsN (k + (l.map fun e => (multWords e.2).length + len e.1).sum + 2)) :
    ∃ p, Placed k l p ∧ (p.map part).flatten.length =
      (l.map fun e => (multWords e.2).length + len e.1).sum ∧
      ∀ (i : Nat) (h : i < l.length) (h' : i < p.length), p[i].2.length = len l[i].1 := by
  induction l generalizing k with
  | nil => exact ⟨[], trivial, rfl, fun i h => by simp at h⟩
  | cons e l ih =>
    obtain ⟨d, m⟩ := e
    simp only [List.map_cons, List.sum_cons] at hf
    obtain ⟨w, h1, h2⟩ := h (d, m) (by simp) (k + (multWords m).length + 1) (by simp only; omega)
    simp only at h1 h2
    obtain ⟨p, h3, h4, h5⟩ := ih (k + (part (m, w)).length) (fun e he => h e (by simp [he])) (by
      simp only [part, List.length_append]; omega)
    refine ⟨(m, w) :: p, ⟨rfl, h1, h3⟩, ?_, fun i hi hi' => ?_⟩
    · simp only [List.map_cons, List.flatten_cons, List.length_append, h4, List.sum_cons, part, h2]
    · cases i with
      | zero => exact h2
      | succ i => exact h5 i (by simpa using hi) (by simpa using hi')

theorem loop_spec (size : Nat) (l : List (EnergyData × Mult)) (p : Parts) (ls acc : Words)
    (tyr : List Nat) (z : Dbl) (hn : size = ls.length + l.length) (h : Placed acc.length l p) :
    loop size l (ls ++ List.replicate l.length z ++ acc) tyr ls.length =
      .ok (ls ++ locs acc.length p ++ acc ++ (p.map part).flatten, tyr ++ tyrs acc.length p) := by
  induction l generalizing p ls acc tyr with
  | nil => cases p with
    | nil => simp [loop, locs, tyrs]
    | cons => exact h.elim
  | cons e l ih => cases p with
    | nil => exact h.elim
    | cons a p =>
      obtain ⟨d, m⟩ := e
      obtain ⟨m', w⟩ := a
      obtain ⟨h1, h2, h3⟩ := h
      simp only at h1 h2
      subst h1
      have hlen : (ls ++ List.replicate ((d, m') :: l).length z ++ acc).length - size = acc.length := by
        simp at hn ⊢; omega
      have hlen' : (ls ++ List.replicate ((d, m') :: l).length z ++ acc ++ multWords m').length - size + 1
          = acc.length + (multWords m').length + 1 := by
        simp at hn ⊢; omega
      have hset : (ls ++ List.replicate ((d, m') :: l).length z ++ acc ++ multWords m').set ls.length
            (Dbl.ofNat (acc.length + (multWords m').length + 1)) ++ w
          = (ls ++ [Dbl.ofNat (acc.length + (multWords m').length + 1)]) ++ List.replicate l.length z ++
            (acc ++ part (m', w)) := by
        simp [List.replicate_succ, part]
      unfold loop
      simp only [hlen, hlen', h2, ok_bind, hset]
      have := ih p (ls ++ [Dbl.ofNat (acc.length + (multWords m').length + 1)]) (acc ++ part (m', w))
        (tyr ++ [tyrOf acc.length m']) (by simp at hn ⊢; omega) (by simpa using h3)
      simp only [List.length_append, List.length_singleton] at this
      rw [this]
      simp [locs, tyrs]

theorem generateXSS_spec (ds : List EnergyData) (ms : List Mult) (p : Parts)
    (hl : ds.length = ms.length) (h : Placed 0 (ds.zip ms) p) :
    generateXSS ds ms = .ok (locs 0 p ++ (p.map part).flatten, tyrs 0 p) := by
  have hz : (ds.zip ms).length = ds.length := by simp [hl]
  have := loop_spec ds.length (ds.zip ms) p [] [] [] (Dbl.ofNat 0) (by simp [hl]) h
  unfold generateXSS
  rw [hz] at this
  simp only [List.nil_append, List.append_nil, List.length_nil] at this
  simp [guardThrow, hl]
  rw [hl] at this
  exact this

/-- What is needed of the TYR block of a reader. -/
def TyrMatches (p : Parts) (t : TYR) : Prop :=
  ∀ (i : Nat) (h : i < p.length),
    t.multiplicity (i + 1) = .ok (tyrOf (startOf (p.map part) i) p[i].1)

/-- Small integers stay small. -/
def Small : Mult → Prop
  | .int n => n < 100
  | .tab _ => True

theorem tyrOf_tab (n : Nat) (d : TabulatedData) (h : FitsN (n + 101)) : tyrOf n (.tab d) = n + 101 := by
  unfold FitsN at h
  show (100 + (n + 1)) % 4294967296 = n + 101
  omega

theorem LDLWof_ok (p : Parts) (tail : Words) (i : Nat) (h : i < p.length)
    (hf : FitsN (startOf (p.map part) i + (multWords p[i].1).length + 1)) :
    LDLWof (locs 0 p ++ tail) p.length (i + 1) =
      .ok ((startOf (p.map part) i + (multWords p[i].1).length + 1 : Nat) : Int) := by
  have hlt : i < (locs 0 p).length := by simpa using h
  obtain ⟨a, c, hac, ha⟩ := getElem_split (locs 0 p) i hlt
  rw [locs_getElem 0 p i hlt h, Nat.zero_add] at hac
  unfold LDLWof
  rw [if_neg (by omega)]
  refine Base.IXSS_ofNat (a := a) (c := c ++ tail) ?_ (by omega) hf
  rw [hac]; simp

theorem part_start_le (p : Parts) (i : Nat) (h : i < p.length) :
    startOf (p.map part) i + (multWords p[i].1).length + p[i].2.length ≤
      (p.map part).flatten.length := by
  have := startOf_add_le (p.map part) i (by simpa using h)
  simp only [List.getElem_map, part, List.length_append] at this
  omega

/-- Reading one reaction: the distribution is read at its locator from exactly its words (and, for
the last reaction, what follows), the multiplicity from its table. -/
theorem generateBlock_ok (p : Parts) (rest : Words) (t : TYR) (ht : TyrMatches p t)
    (hs : ∀ a ∈ p, Small a.1) (hf : FitsN (p.length + (p.map part).flatten.length + 101)) (i : Nat)
    (h : i < p.length) (e : EnergyData) (m : Mult)
    (he : EnergyData.read (startOf (p.map part) i + (multWords p[i].1).length + 1)
      (if i + 1 = p.length then p[i].2 ++ rest else p[i].2) = .ok e)
    (hm : match p[i].1 with
      | .int n => m = .int n
      | .tab d => ∃ d', TabulatedData.ofRange d.xss = .ok d' ∧ m = .tab d') :
    generateBlock (locs 0 p ++ (p.map part).flatten ++ rest) p.length t i = .ok (e, m) := by
  have hb := part_start_le p i h
  have hL := LDLWof_ok p ((p.map part).flatten ++ rest) i h (by omega)
  have hL' : ∀ (h' : i + 1 < p.length),
      LDLWof (locs 0 p ++ ((p.map part).flatten ++ rest)) p.length (i + 1 + 1) =
        .ok ((startOf (p.map part) (i + 1) + (multWords p[i + 1].1).length + 1 : Nat) : Int) := fun h' =>
    LDLWof_ok p ((p.map part).flatten ++ rest) (i + 1) h' (by
      have := part_start_le p (i + 1) h'; omega)
  rw [← List.append_assoc] at hL hL'
  generalize hxs : locs 0 p ++ (p.map part).flatten ++ rest = xs at hL hL'
  have hxl : xs.length = p.length + (p.map part).flatten.length + rest.length := by
    rw [← hxs]; simp; omega
  have hpl : i < (p.map part).length := by simpa using h
  have hsplit := flatten_split (p.map part) i hpl
  have hpart : (p.map part)[i] = multWords p[i].1 ++ p[i].2 := by simp [part]
  have hst := startOf_succ (p.map part) i hpl
  rw [hpart, List.length_append] at hst
  -- the left end
  generalize hml : multWords p[i].1 = mw at hL hb hpart hst he
  generalize hsi : startOf (p.map part) i = s at hL hb hst he
  have hiter : Base.iterator xs (sizeOfInt ((p.length : Int) + 1 + ((s + mw.length + 1 : Nat) : Int) - 1))
      = .ok (p.length + (s + mw.length)) := by
    have e1 : sizeOfInt ((p.length : Int) + 1 + ((s + mw.length + 1 : Nat) : Int) - 1) =
        p.length + (s + mw.length) + 1 := by
      unfold FitsN at hf; unfold sizeOfInt; omega
    rw [e1, Base.iterator_ok (by omega) (by omega)]; rfl
  -- the right end
  have hright : rightOf xs p.length t (i + 1) =
      .ok (if i + 1 = p.length then xs.length else p.length + (s + mw.length + p[i].2.length)) := by
    unfold rightOf
    by_cases hlast : i + 1 = p.length
    · rw [if_pos hlast, if_pos hlast]
    · rw [if_neg hlast, if_neg hlast]
      have h' : i + 1 < p.length := by omega
      have hb' := part_start_le p (i + 1) h'
      have hL2 := hL' h'
      rw [ht (i + 1) h', ok_bind]
      generalize hq : p[i + 1].1 = q at hL2 hb'
      have hsm : Small q := hq ▸ hs _ (List.getElem_mem h')
      cases q with
      | int n =>
        have hn : n < 100 := hsm
        have : tyrOf (startOf (p.map part) (i + 1)) (.int n) = n := rfl
        rw [this, if_pos hn, hL2, ok_bind]
        have e1 : sizeOfInt ((p.length : Int) + 1 +
            ((startOf (p.map part) (i + 1) + (multWords (.int n)).length + 1 : Nat) : Int) - 1) =
            p.length + (s + mw.length + p[i].2.length) + 1 := by
          have : (multWords (.int n)).length = 0 := rfl
          unfold FitsN at hf; unfold sizeOfInt; omega
        rw [e1, Base.iterator_ok (by omega) (by omega)]; rfl
      | tab d =>
        rw [tyrOf_tab _ _ (by omega), if_neg (by omega)]
        rw [Base.iterator_ok (by omega) (by omega)]
        congr 1; omega
  have hsub : sub xs (p.length + (s + mw.length))
      (if i + 1 = p.length then xs.length else p.length + (s + mw.length + p[i].2.length)) =
      .ok (if i + 1 = p.length then p[i].2 ++ rest else p[i].2) := by
    have hts : ((p.map part).take i).flatten.length = s := hsi
    rw [hpart] at hsplit
    by_cases hlast : i + 1 = p.length
    · rw [if_pos hlast, if_pos hlast]
      have hd : ((p.map part).drop (i + 1)).flatten = [] := by
        rw [List.drop_of_length_le (by simp; omega)]; rfl
      have hfl := startOf_length (p.map part)
      rw [List.length_map, ← hlast] at hfl
      refine sub_of_eq (a := locs 0 p ++ ((p.map part).take i).flatten ++ mw) (c := []) ?_ ?_ ?_
      · rw [← hxs, hsplit, hd]; simp
      · simp only [List.length_append, locs_length, hts]; omega
      · simp only [List.length_append, locs_length, hts]; omega
    · rw [if_neg hlast, if_neg hlast]
      refine sub_of_eq (a := locs 0 p ++ ((p.map part).take i).flatten ++ mw)
        (c := ((p.map part).drop (i + 1)).flatten ++ rest) ?_ ?_ ?_
      · rw [← hxs, hsplit]; simp
      · simp only [List.length_append, locs_length, hts]; omega
      · simp only [List.length_append, locs_length, hts]; omega
  have hmult : multOf xs p.length t (i + 1) (p.length + (s + mw.length)) = .ok m := by
    unfold multOf
    rw [ht i h, ok_bind, hsi]
    have hsm := hs _ (List.getElem_mem h)
    generalize hq : p[i].1 = q at hsm hm hml
    cases q with
    | int n =>
      have hn : n < 100 := hsm
      have : tyrOf s (.int n) = n := rfl
      rw [this, if_neg (by omega), hm]; rfl
    | tab d =>
      obtain ⟨d', h1, h2⟩ := hm
      have hmw : mw = d.xss := hml.symm
      have hts : ((p.map part).take i).flatten.length = s := hsi
      rw [hpart] at hsplit
      rw [tyrOf_tab _ _ (by omega), if_pos (by omega), Base.iterator_ok (by omega) (by omega), ok_bind]
      have : sub xs (p.length + 1 + (s + 101) - 100 - 1 - 1) (p.length + (s + mw.length)) = .ok mw := by
        refine sub_of_eq (a := locs 0 p ++ ((p.map part).take i).flatten)
          (c := p[i].2 ++ ((p.map part).drop (i + 1)).flatten ++ rest) ?_ ?_ ?_
        · rw [← hxs, hsplit]; simp
        · simp only [List.length_append, locs_length, hts]; omega
        · simp only [List.length_append, locs_length, hts]; omega
      rw [this, ok_bind, hmw, h1, h2]; rfl
  unfold generateBlock
  have hg : guardThrow (((s + mw.length + 1 : Nat) : Int) != 0) = .ok () :=
    guardThrow_ok (by simp; omega)
  have hlz : sizeOfInt ((s + mw.length + 1 : Nat) : Int) = s + mw.length + 1 :=
    sizeOfInt_natCast (by omega)
  simp only [hL, ok_bind, hg, hiter, hright, hsub, hlz, he, hmult]
  rfl

/-- Reading all reactions. -/
theorem generateBlocks_ok (p : Parts) (rest : Words) (t : TYR) (ht : TyrMatches p t)
    (hfr : p.length ≤ t.frames.length)
    (hs : ∀ a ∈ p, Small a.1) (hf : FitsN (p.length + (p.map part).flatten.length + 101))
    (es : List EnergyData) (ms : List Mult) (hle : es.length = p.length) (hlm : ms.length = p.length)
    (he : ∀ (i : Nat) (h : i < p.length),
      EnergyData.read (startOf (p.map part) i + (multWords p[i].1).length + 1)
      (if i + 1 = p.length then p[i].2 ++ rest else p[i].2) = .ok (es[i]'(by omega)))
    (hm : ∀ (i : Nat) (h : i < p.length), match p[i].1 with
      | .int n => ms[i]'(by omega) = .int n
      | .tab d => ∃ d', TabulatedData.ofRange d.xss = .ok d' ∧ ms[i]'(by omega) = .tab d') :
    generateBlocks (locs 0 p ++ (p.map part).flatten ++ rest) p.length t =
      .ok ⟨locs 0 p ++ (p.map part).flatten ++ rest, p.length, t, es, ms, t.frames.take p.length⟩ := by
  unfold generateBlocks
  rw [mapM_range_eq _ (es.zip ms) _ (by simp [hle, hlm]) (fun i hi => by
    have hi' : i < p.length := by simp [hle, hlm] at hi; exact hi
    rw [generateBlock_ok p rest t ht hs hf i hi' _ _ (he i hi') (hm i hi')]
    simp)]
  unfold firstFrames
  rw [if_pos hfr]
  have e1 : (es.zip ms).map (·.1) = es := List.map_fst_zip (by omega)
  have e2 : (es.zip ms).map (·.2) = ms := List.map_snd_zip (by omega)
  simp only [ok_bind, e1, e2]
  rfl

end ACE.DLW
