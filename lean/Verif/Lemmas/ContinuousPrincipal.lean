import Verif.Lemmas.ContinuousMarks
import Verif.Props.C21

/-! # Reading the blocks other than those of secondary particles -/

namespace ACE.CE
open ACE.Props

/-- The frames and multiplicities of all reactions. -/
def allTyr (B : Blocks) (vs : List (Frame × Nat)) (ntr : Nat) : List (Frame × Nat) :=
  vs.take B.ang.nr ++ List.replicate (ntr - B.ang.nr) (.laboratory, 0)

/-- The TYR block of frames and multiplicities. -/
def tyrBlock (us : List (Frame × Nat)) : TYR :=
  ⟨us.map (fun v => TYR.word v.1 v.2), us.length, us.map (·.1), us.map (·.2)⟩

section
variable {B : Blocks} {mts : List Nat} {vs : List (Frame × Nat)}

theorem allTyr_length (hs : Sound B mts vs) : (allTyr B vs mts.length).length = mts.length := by
  have := hs.nr
  have := hs.ntyr
  simp [allTyr]; omega

theorem allTyr_ok (hs : Sound B mts vs) : ∀ v ∈ allTyr B vs mts.length, TyrOk v := by
  intro v hv
  rcases List.mem_append.mp hv with hv | hv
  · exact hs.signs v (List.mem_of_mem_take hv)
  · rw [(List.mem_replicate.mp hv).2]
    exact ⟨by unfold FitsN; omega, by intro h; cases h⟩

theorem dlw_fields (hs : Sound B mts vs) : B.dlw.nr = B.ang.nr ∧
    B.dlw.frames = (vs.take B.ang.nr).map (·.1) := by
  have h := hs.dlw
  unfold DLW.ofRange DLW.generateBlocks at h
  obtain ⟨_, _, h⟩ := bind_eq_ok.mp h
  obtain ⟨r, hr, h⟩ := bind_eq_ok.mp h
  obtain ⟨f, hf, h⟩ := bind_eq_ok.mp h
  injection h with h
  unfold DLW.firstFrames at hf
  split at hf
  · injection hf with hf
    refine ⟨by rw [← h], ?_⟩
    rw [hs.tyr.2.1] at hf
    rw [← h, ← hf, List.map_take]
  · cases hf

theorem generateTYR_eq (hs : Sound B mts vs) :
    generateTYR B.dlw B.mtr.n = .ok (tyrBlock (allTyr B vs mts.length)) := by
  obtain ⟨h1, h2⟩ := dlw_fields hs
  have h3 := (sound_lengths hs).1
  have h4 := hs.ntyr
  unfold generateTYR
  rw [h1, h2, h3, hs.tyr.2.2, if_neg (by simp; omega)]
  have hb := tyr_built (allTyr B vs mts.length) (allTyr_ok hs)
  have e1 : (allTyr B vs mts.length).map (·.1) = List.map (·.1) (vs.take B.ang.nr) ++
      List.replicate (mts.length - B.ang.nr) Frame.laboratory := by
    simp [allTyr]
  have e2 : (allTyr B vs mts.length).map (·.2) = List.take B.ang.nr (vs.map (·.2)) ++
      List.replicate (mts.length - B.ang.nr) 0 := by
    simp [allTyr]
  rw [e1, e2] at hb
  rw [hb, tyrBlock, e1, e2]

/-- The blocks, locators and counts are in the table. -/
structure Ready (B : Blocks) (T : TYR) (fis : Nat) (d : TableData) : Prop where
  ok : (marks B T fis).Ok
  js : d.jxs = (marks B T fis).js.map (fun v : Nat => (v : Int))
  fits : ∀ v ∈ (marks B T fis).js, FitsN (v + 1)
  xss : d.xss = x20 B T ++ spWords B T
  nes : d.count 3 = .ok B.esz.n
  ntr : d.count 4 = .ok B.mtr.n
  nr : d.count 5 = .ok B.ang.nr
  ntrp : d.count 6 = .ok (marks B T fis).ntrp
  ntype : d.count 7 = .ok (marks B T fis).ntype
  npcr : d.count 8 = .ok (marks B T fis).npcr

/-! ## Prefixes -/

section
variable (B : Blocks) (T : TYR)
theorem p1 : x1 B <+: x2 B := List.prefix_append _ _
theorem p2 : x2 B <+: x3 B := List.prefix_append _ _
theorem p3 : x3 B <+: x4 B := List.prefix_append _ _
theorem p4 : x4 B <+: x5 B T := List.prefix_append _ _
theorem p5 : x5 B T <+: x6 B T := List.prefix_append _ _
theorem p6 : x6 B T <+: x8 B T := List.prefix_append _ _
theorem p8 : x8 B T <+: x10 B T := List.prefix_append _ _
theorem p10 : x10 B T <+: x23 B T := List.prefix_append _ _
theorem p23 : x23 B T <+: x24 B T := List.prefix_append _ _
theorem p24 : x24 B T <+: x25 B T := List.prefix_append _ _
theorem p25 : x25 B T <+: x26 B T := List.prefix_append _ _
theorem p26 : x26 B T <+: x12 B T := List.prefix_append _ _
theorem p12 : x12 B T <+: x13 B T := List.prefix_append _ _
theorem p13 : x13 B T <+: x14 B T := List.prefix_append _ _
theorem p14 : x14 B T <+: x16 B T := List.prefix_append _ _
theorem p16 : x16 B T <+: x18 B T := List.prefix_append _ _
theorem p18 : x18 B T <+: x20 B T := List.prefix_append _ _
theorem q18 : x18 B T <+: x20 B T := p18 B T
theorem q16 : x16 B T <+: x20 B T := (p16 B T).trans (q18 B T)
theorem q14 : x14 B T <+: x20 B T := (p14 B T).trans (q16 B T)
theorem q13 : x13 B T <+: x20 B T := (p13 B T).trans (q14 B T)
theorem q12 : x12 B T <+: x20 B T := (p12 B T).trans (q13 B T)
theorem q26 : x26 B T <+: x20 B T := (p26 B T).trans (q12 B T)
theorem q25 : x25 B T <+: x20 B T := (p25 B T).trans (q26 B T)
theorem q24 : x24 B T <+: x20 B T := (p24 B T).trans (q25 B T)
theorem q23 : x23 B T <+: x20 B T := (p23 B T).trans (q24 B T)
theorem q10 : x10 B T <+: x20 B T := (p10 B T).trans (q23 B T)
theorem q8 : x8 B T <+: x20 B T := (p8 B T).trans (q10 B T)
theorem q6 : x6 B T <+: x20 B T := (p6 B T).trans (q8 B T)
theorem q5 : x5 B T <+: x20 B T := (p5 B T).trans (q6 B T)
theorem q4 : x4 B <+: x20 B T := (p4 B T).trans (q5 B T)
theorem q3 : x3 B <+: x20 B T := (p3 B).trans (q4 B T)
theorem q2 : x2 B <+: x20 B T := (p2 B).trans (q3 B T)
theorem q1 : x1 B <+: x20 B T := (p1 B).trans (q2 B T)
end

theorem words_between {d : TableData} {a b c : Words} (hc : c = a ++ b) (h : c <+: d.xss) :
    sub d.xss a.length c.length = .ok b := by
  subst hc
  rw [List.length_append]
  exact sub_of_prefix h

theorem words_between' {d : TableData} {a b c : Words} (hc : c = a ++ b) (h : c <+: d.xss) :
    d.words (a.length, c.length) = .ok b := words_between hc h

end

attribute [local irreducible] x1 x2 x3 x4 x5 x6 x8 x10 x23 x24 x25 x26 x12 x13 x14 x16 x18 x20

section
variable {B : Blocks} {mts : List Nat} {vs : List (Frame × Nat)} {T : TYR} {fis : Nat}
  {d : TableData}

theorem Ready.pre (r : Ready B T fis d) {a : Words} (h : a <+: x20 B T) : a <+: d.xss := by
  rw [r.xss]; exact h.trans (List.prefix_append _ _)

theorem Ready.hx (r : Ready B T fis d) : (marks B T fis).n20 ≤ d.xss.length := by
  show (x20 B T).length ≤ _
  rw [r.xss]; simp

theorem Ready.hend (r : Ready B T fis d) (h : (marks B T fis).sp = false) :
    d.xss.length = (marks B T fis).n20 := by
  have h : B.secondaries.isSome = false := h
  have : B.secondaries = none := by simpa using h
  show d.xss.length = (x20 B T).length
  rw [r.xss, spWords, this]; simp

theorem Ready.jxs (r : Ready B T fis d) (i : Nat) (hi : i < 32) :
    d.JXS (i + 1) = .ok ((marks B T fis).js.getD i 0 : Nat) := JXS_cast r.js rfl i hi

/-- The TYR block is read again from its words. -/
theorem tyr_again (us : List (Frame × Nat)) (ho : ∀ v ∈ us, TyrOk v) :
    TYR.ofRange (tyrBlock us).xss us.length = .ok (tyrBlock us) := by
  have h := tyr_blocks us [] ho
  rw [List.append_nil] at h
  unfold TYR.ofRange
  rw [guardThrow_eq_ok.mpr (by simp [tyrBlock])]
  exact h

theorem dlw_again (hs : Sound B mts vs) :
    DLW.ofRange B.dlw.xss B.ang.nr (tyrBlock (allTyr B vs mts.length)) B.ang.nr =
      .ok { B.dlw with tyr := tyrBlock (allTyr B vs mts.length) } := by
  have h := hs.dlw
  have h1 := hs.ntyr
  have h2 := hs.nr
  unfold DLW.ofRange at h ⊢
  obtain ⟨u, hu, h⟩ := bind_eq_ok.mp h
  rw [hu]
  have hm : ∀ (i : Nat), i < B.ang.nr →
      (allTyr B vs mts.length)[i]? = vs[i]? := by
    intro i hi
    unfold allTyr
    rw [List.getElem?_append_left (by simp; omega), List.getElem?_take_of_lt hi]
  refine dlw_tyr h (fun i hi hn => ?_) ?_
  · unfold TYR.multiplicity
    have e1 : (tyrBlock (allTyr B vs mts.length)).ntr = mts.length := allTyr_length hs
    rw [e1, hs.tyr.1, hs.tyr.2.2, if_neg (by omega), if_neg (by omega)]
    show (match ((allTyr B vs mts.length).map (·.2))[i - 1]? with | some x => _ | none => _) = _
    rw [List.getElem?_map, List.getElem?_map, hm (i - 1) (by omega)]
    rfl
  · unfold DLW.firstFrames
    have e1 : (tyrBlock (allTyr B vs mts.length)).frames.length = mts.length := by
      show ((allTyr B vs mts.length).map (·.1)).length = _
      rw [List.length_map, allTyr_length hs]
    rw [hs.tyr.2.1, if_pos (by omega), if_pos (by simpa using h1)]
    show Except.ok (((allTyr B vs mts.length).map (·.1)).take _) = _
    have : (allTyr B vs mts.length).take B.ang.nr = vs.take B.ang.nr := by
      unfold allTyr
      rw [List.take_append_of_le_length (by simp; omega), List.take_take]
      simp
    rw [← List.map_take, this, List.map_take]

theorem readPrincipal_eq (hs : Sound B mts vs)
    (r : Ready B (tyrBlock (allTyr B vs mts.length)) fis d) :
    readPrincipal d = .ok ⟨B.esz, B.nu, B.mtr, B.lqr, tyrBlock (allTyr B vs mts.length), B.sig,
      B.ang, { B.dlw with tyr := tyrBlock (allTyr B vs mts.length) }⟩ := by
  generalize hT : tyrBlock (allTyr B vs mts.length) = T at r
  obtain ⟨l1, l2, l3, l4, l5, l6, l7⟩ := sound_lengths hs
  have ok := r.ok
  have hj := r.js
  have hf := r.fits
  have hx := r.hx
  have b1 := block1 _ ok d hj hf hx
  have b3 := block3 _ ok d hj hf hx
  have b4 := block4 _ ok d hj hf hx
  have b5 := block5 _ ok d hj hf hx
  obtain ⟨e6, b6⟩ := block6 _ ok d hj hf hx
  have b7 := block7 _ ok d hj hf hx
  obtain ⟨e8, b8⟩ := block8 _ ok d hj hf hx
  have b9 := block9 _ ok d hj hf hx
  obtain ⟨e10, b10⟩ := block10 _ ok d hj hf hx
  have b11 := block11 _ ok d hj hf hx r.hend
  have w1 : d.words (0, (marks B T fis).n1) = .ok B.esz.xss :=
    words_between' (a := []) (c := x1 B) (by rw [x1, List.nil_append]) (r.pre (q1 B T))
  have w3 : d.words ((marks B T fis).n2, (marks B T fis).n3) = .ok B.mtr.xss :=
    words_between' (a := x2 B) (c := x3 B) (by rw [x3]) (r.pre (q3 B T))
  have w4 : d.words ((marks B T fis).n3, (marks B T fis).n4) = .ok B.lqr.xss :=
    words_between' (a := x3 B) (c := x4 B) (by rw [x4]) (r.pre (q4 B T))
  have w5 : d.words ((marks B T fis).n4, (marks B T fis).n5) = .ok T.xss :=
    words_between' (a := x4 B) (c := x5 B T) (by rw [x5]) (r.pre (q5 B T))
  have w6 : sub d.xss (marks B T fis).n5 (marks B T fis).n6 = .ok B.sig.xss :=
    words_between (a := x5 B T) (c := x6 B T) (by rw [x6]) (r.pre (q6 B T))
  have w8 : sub d.xss (marks B T fis).n6 (marks B T fis).n8 = .ok B.ang.xss :=
    words_between (a := x6 B T) (c := x8 B T) (by rw [x8]) (r.pre (q8 B T))
  have w10 : sub d.xss (marks B T fis).n8 (marks B T fis).n10 = .ok B.dlw.xss :=
    words_between (a := x8 B T) (c := x10 B T) (by rw [x10]) (r.pre (q10 B T))
  have m1 : MTR.ofRange B.mtr.xss B.mtr.n = .ok B.mtr := by
    have := (C21_objects mts []).2
    simp only [List.append_nil] at this
    rw [mtr_of hs]; exact this
  have hnu : onlyIf ((((marks B T fis).js.getD 1 0 : Nat) : Int) > 0)
      (block d 2 >>= fun r => d.words r >>= fun w => NU.ofRange w) = .ok B.nu := by
    cases h : B.nu with
    | none =>
      have : (marks B T fis).nu = false := by simp [marks, h]
      refine onlyIf_false ?_
      simp [Marks.js, this]
    | some x =>
      have hn : (marks B T fis).nu = true := by simp [marks, h]
      have b2 := block2 _ ok d hj hf hx hn
      have w2 : d.words ((marks B T fis).n1, (marks B T fis).n2) = .ok x.xss :=
        words_between' (a := x1 B) (c := x2 B) (by rw [x2, h]; rfl) (r.pre (q2 B T))
      refine onlyIf_true ?_ ?_
      · simp [Marks.js, hn]
      · rw [b2, ok_bind, w2, ok_bind, hs.nu x h]
  have t1 : TYR.ofRange T.xss B.mtr.n = .ok T := by
    have := tyr_again _ (allTyr_ok hs)
    rw [hT, allTyr_length hs] at this
    rw [l1]; exact this
  have d1 := dlw_again hs
  rw [hT] at d1
  unfold readPrincipal
  simp only [r.ntr, r.nr, r.nes, ok_bind, b1, w1, hs.esz]
  rw [r.jxs 1 (by omega), ok_bind, hnu]
  simp only [ok_bind, b3, w3, m1, b4, w4]
  have lq := hs.lqr
  have sg := hs.sig
  rw [← l1] at lq sg
  rw [lq, ok_bind, b5, ok_bind, w5, ok_bind, t1, ok_bind, b6, ok_bind, b7, ok_bind]
  rw [show located d ((marks B T fis).n5, e6) ((marks B T fis).n5 + (marks B T fis).ntr,
    (marks B T fis).n6) = .ok (B.sig.xss, B.mtr.n) from located_of w6, ok_bind, sg, ok_bind,
    b8, ok_bind, b9, ok_bind]
  rw [show located d ((marks B T fis).n6, e8) ((marks B T fis).n6 + ((marks B T fis).nr + 1),
    (marks B T fis).n8) = .ok (B.ang.xss, B.ang.nr + 1) from located_of w8, ok_bind, hs.ang, ok_bind,
    b10, ok_bind, b11, ok_bind]
  rw [show located d ((marks B T fis).n8, e10) ((marks B T fis).n8 + (marks B T fis).nr,
    (marks B T fis).n10) = .ok (B.dlw.xss, B.ang.nr) from located_of w10, ok_bind]
  rw [d1]; rfl

end

end ACE.CE
