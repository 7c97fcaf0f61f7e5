import Verif.Lemmas.ContinuousWords

/-! # Reading the blocks of a continuous energy table made from blocks -/

namespace ACE.CE
open ACE.Props

/-! ## Lengths -/

theorem mapM_mem_ok {α β : Type} (f : α → Res β) : ∀ (l : List α) (r : List β), l.mapM f = .ok r →
    ∀ x ∈ l, ∃ y, f x = .ok y := by
  intro l
  induction l with
  | nil => intro r _ x hx; simp at hx
  | cons a l ih =>
    intro r h x hx
    rw [List.mapM_cons] at h
    obtain ⟨y, hy, h⟩ := bind_eq_ok.mp h
    obtain ⟨ys, hys, h⟩ := bind_eq_ok.mp h
    rcases List.mem_cons.mp hx with rfl | hx
    · exact ⟨y, hy⟩
    · exact ih ys hys x hx

theorem IXSS_ok_le {xs : Words} {i : Nat} {v : Int} (h : Base.IXSS xs i = .ok v) :
    i ≤ xs.length := by
  unfold Base.IXSS at h
  obtain ⟨x, hx, _⟩ := bind_eq_ok.mp h
  have := (Base.XSS_eq_ok_iff.mp hx)
  have := (List.getElem?_eq_some_iff.mp this.2).1
  omega

theorem locBlock_fields {D : Type} {gen : Nat → Words → Res D} {xs : Words} {iter n : Nat} {l : Bool}
    {b : LocBlock D} (h : LocBlock.ofRange gen xs iter n l = .ok b) : b.xss = xs ∧ b.n = n := by
  unfold LocBlock.ofRange LocBlock.generateBlocks at h
  obtain ⟨_, _, h⟩ := bind_eq_ok.mp h
  obtain ⟨_, _, h⟩ := bind_eq_ok.mp h
  injection h with h; subst h; exact ⟨rfl, rfl⟩

theorem locBlock_length {D : Type} {gen : Nat → Words → Res D} {xs : Words} {iter n : Nat}
    {b : LocBlock D} (h : LocBlock.ofRange gen xs iter n true = .ok b) : n ≤ xs.length := by
  unfold LocBlock.ofRange LocBlock.generateBlocks at h
  obtain ⟨_, _, h⟩ := bind_eq_ok.mp h
  obtain ⟨r, hr, h⟩ := bind_eq_ok.mp h
  rcases n with _ | k
  · omega
  obtain ⟨y, hy⟩ := mapM_mem_ok _ _ _ hr k (by simp)
  unfold LocBlock.generateBlock at hy
  obtain ⟨l, hl, _⟩ := bind_eq_ok.mp hy
  unfold LocBlock.LLOCof at hl
  obtain ⟨_, _, hl⟩ := bind_eq_ok.mp hl
  rw [if_pos rfl] at hl
  obtain ⟨v, hv, _⟩ := bind_eq_ok.mp hl
  exact IXSS_ok_le hv

theorem angular_length {xs : Words} {iter nr : Nat} {z : Bool} {b : AngularBlock}
    (h : AngularBlock.ofRange xs iter nr z = .ok b) : nr + (if z then 1 else 0) ≤ xs.length := by
  unfold AngularBlock.ofRange AngularBlock.generateBlocks at h
  obtain ⟨_, _, h⟩ := bind_eq_ok.mp h
  obtain ⟨r, hr, h⟩ := bind_eq_ok.mp h
  have key : (if z then 0 else 1) ≤ nr → nr + (if z then 1 else 0) ≤ xs.length := by
    intro hz
    obtain ⟨y, hy⟩ := mapM_mem_ok _ _ _ hr nr (by
      rw [List.mem_range'_1]; cases z <;> simp at hz ⊢ <;> omega)
    unfold AngularBlock.generateBlock at hy
    obtain ⟨l, hl, _⟩ := bind_eq_ok.mp hy
    unfold AngularBlock.LANDof at hl
    rw [if_neg (by cases z <;> simp at hz ⊢ <;> omega)] at hl
    exact IXSS_ok_le hl
  cases z
  · rcases nr with _ | k
    · simp
    · exact key (by simp)
  · exact key (by simp)

theorem dlw_length {xs : Words} {data nr : Nat} {t : TYR} {b : DLW}
    (h : DLW.ofRange xs data t nr = .ok b) : nr ≤ xs.length := by
  unfold DLW.ofRange DLW.generateBlocks at h
  obtain ⟨_, _, h⟩ := bind_eq_ok.mp h
  obtain ⟨r, hr, h⟩ := bind_eq_ok.mp h
  rcases nr with _ | k
  · omega
  obtain ⟨y, hy⟩ := mapM_mem_ok _ _ _ hr k (by simp)
  unfold DLW.generateBlock at hy
  obtain ⟨l, hl, _⟩ := bind_eq_ok.mp hy
  unfold DLW.LDLWof at hl
  split at hl
  · cases hl
  · exact IXSS_ok_le hl

theorem array_fields {xs : Words} {n m : Nat} {b : ArrayData} (h : ArrayData.ofRange xs n m = .ok b) :
    b = ⟨xs, n, m⟩ := by
  unfold ArrayData.ofRange ArrayData.verifySize at h
  obtain ⟨_, hg, h⟩ := bind_eq_ok.mp h
  injection h with h; subst h
  rfl

/-! ## The frames and multiplicities used to read DLW -/

theorem dlw_tyr {xs : Words} {nr : Nat} {t t' : TYR} {b : DLW}
    (h : DLW.generateBlocks xs nr t = .ok b)
    (hm : ∀ i, 1 ≤ i → i ≤ nr → t'.multiplicity i = t.multiplicity i)
    (hf : DLW.firstFrames t' nr = DLW.firstFrames t nr) :
    DLW.generateBlocks xs nr t' = .ok { b with tyr := t' } := by
  have hb : ∀ i ∈ List.range nr, DLW.generateBlock xs nr t' i = DLW.generateBlock xs nr t i := by
    intro i hi
    have hi : i < nr := by simpa using hi
    have h1 := hm (i + 1) (by omega) (by omega)
    by_cases hn : i + 1 = nr
    · simp only [DLW.generateBlock, DLW.rightOf, DLW.multOf, h1, if_pos hn]
    · have h2 := hm (i + 1 + 1) (by omega) (by omega)
      simp only [DLW.generateBlock, DLW.rightOf, DLW.multOf, h1, h2]
  have hb' : (List.range nr).mapM (DLW.generateBlock xs nr t') =
      (List.range nr).mapM (DLW.generateBlock xs nr t) := by
    have : ∀ l : List Nat, (∀ i ∈ l, DLW.generateBlock xs nr t' i = DLW.generateBlock xs nr t i) →
        l.mapM (DLW.generateBlock xs nr t') = l.mapM (DLW.generateBlock xs nr t) := by
      intro l hl
      induction l with
      | nil => rfl
      | cons a l ih =>
        rw [List.mapM_cons, List.mapM_cons, hl a (by simp), ih (fun i hi => hl i (by simp [hi]))]
    exact this _ hb
  unfold DLW.generateBlocks at h ⊢
  rw [hb', hf]
  obtain ⟨r, hr, h⟩ := bind_eq_ok.mp h
  obtain ⟨f, hff, h⟩ := bind_eq_ok.mp h
  injection h with h; subst h
  rw [hr, hff]; rfl

/-! ## Counts -/

theorem count_of {d : TableData} {i v : Nat} (h : d.nxs[i]? = some (v : Int)) (hf : FitsN v) :
    d.count (i + 1) = .ok v := by
  have hi : i < d.nxs.length := (List.getElem?_eq_some_iff.mp h).1
  unfold TableData.count TableData.NXS TableData.fetch TableData.verifyIndex
  rw [if_neg (by omega)]
  simp only [ok_bind, Nat.add_sub_cancel, h]
  rw [u32OfInt_natCast (by unfold FitsN at hf; omega)]; rfl

theorem located_of {d : TableData} {n e k m : Nat} {w : Words} (h : sub d.xss n m = .ok w) :
    located d (n, e) (n + k, m) = .ok (w, k) := by
  unfold located
  simp only [h, ok_bind]
  rw [Nat.add_sub_cancel_left]; rfl

theorem onlyIf_true {α : Type} {r : Res α} {a : α} {c : Bool} (hc : c = true) (h : r = .ok a) :
    onlyIf c r = .ok (some a) := by
  unfold onlyIf; rw [if_pos hc, h]; rfl
theorem onlyIf_false {α : Type} {r : Res α} {c : Bool} (hc : c = false) :
    onlyIf c r = .ok none := by
  unfold onlyIf; rw [if_neg (by rw [hc]; simp)]

end ACE.CE
