import Verif.Props.LocalSpec
import Verif.Lemmas.Core
import Verif.Props.C63

/-!
# The words a block of a table is made from
-/

namespace ACE

namespace Local

section

variable {d d' : TableData} (hf : d.SameFrame d')
include hf

theorem JXS_eq (i : Nat) : d'.JXS i = d.JXS i := by
  unfold TableData.JXS
  rw [hf.jxs]

theorem count_eq (i : Nat) : d'.count i = d.count i := by
  unfold TableData.count TableData.NXS
  rw [hf.nxs]

theorem signed_eq (i : Nat) : d'.signed i = d.signed i := by
  unfold TableData.signed TableData.NXS
  rw [hf.nxs]

theorem locator_eq (i : Nat) : d'.locator i = d.locator i := by
  unfold TableData.locator
  rw [JXS_eq hf]

theorem range_eq (start stop : Nat) : d'.range start stop = d.range start stop := by
  unfold TableData.range
  rw [hf.size]

theorem block_eq (i : Nat) : CE.block d' i = CE.block d i := by
  have e (start : Nat) : CE.blockEnd d' i start = CE.blockEnd d i start := by
    have g : CE.generalEnd d' i start = CE.generalEnd d i start := by
      unfold CE.generalEnd
      rw [JXS_eq hf, locator_eq hf, hf.jxs]
    have x (stop : Nat) : CE.exceptions d' i start stop = CE.exceptions d i start stop := by
      unfold CE.exceptions
      simp only [JXS_eq hf, locator_eq hf, hf.jxs]
    unfold CE.blockEnd
    simp only [count_eq hf, g, x]
  unfold CE.block
  simp only [locator_eq hf, e, range_eq hf]

theorem words_eq {r : Nat × Nat} (h : d.SameWords d' r) : d'.words r = d.words r := by
  unfold TableData.words sub
  rw [hf.size]
  split
  · rename_i hr
    refine congrArg Except.ok (List.ext_getElem? fun k => ?_)
    rw [List.getElem?_take, List.getElem?_take, List.getElem?_drop, List.getElem?_drop]
    split
    · exact h _ (by omega) (by omega)
    · rfl
  · rfl

end

/-- A block read from one range. -/
def one {β : Type} (d : TableData) (range : Res (Nat × Nat)) (k : Words → Res β) : Res β :=
  range >>= fun r => d.words r >>= k

/-- A block read from the ranges of its locators and of its data. -/
def two {β : Type} (d : TableData) (a b : Res (Nat × Nat)) (k : Words × Nat → Res β) : Res β :=
  a >>= fun r => b >>= fun s => CE.located d r s >>= k

theorem one_eq {d d' : TableData} (hf : d.SameFrame d') {β : Type} {range : Res (Nat × Nat)} (h : d.SameBlock d' range)
    (k : Words → Res β) : one d' range k = one d range k := by
  unfold one
  cases e : range with
  | error _ => rfl
  | ok r => rw [ok_bind, ok_bind, words_eq hf (h r e)]

theorem two_eq {d d' : TableData} (hf : d.SameFrame d') {β : Type} {a b : Res (Nat × Nat)} (h : d.SamePair d' a b)
    (k : Words × Nat → Res β) : two d' a b k = two d a b k := by
  unfold two
  cases e : a with
  | error _ => rfl
  | ok r =>
      cases e' : b with
      | error _ => rfl
      | ok s =>
          rw [ok_bind, ok_bind, ok_bind, ok_bind]
          unfold CE.located
          have : sub d'.xss r.1 s.2 = sub d.xss r.1 s.2 := words_eq hf (h r s e e')
          rw [this]

theorem one_ok {d : TableData} {β : Type} {range : Res (Nat × Nat)} {k : Words → Res β} {r : Nat × Nat} {w : Words} {b : β}
    (h1 : range = .ok r) (h2 : d.words r = .ok w) (h3 : k w = .ok b) : one d range k = .ok b := by
  unfold one; rw [h1, ok_bind, h2, ok_bind, h3]

theorem two_ok {d : TableData} {β : Type} {a b : Res (Nat × Nat)} {k : Words × Nat → Res β} {r s : Nat × Nat}
    {p : Words × Nat} {v : β} (h1 : a = .ok r) (h2 : b = .ok s) (h3 : CE.located d r s = .ok p) (h4 : k p = .ok v) :
    two d a b k = .ok v := by
  unfold two; rw [h1, ok_bind, h2, ok_bind, h3, ok_bind, h4]

theorem bind_ok {α β : Type} {r : Res α} {k : α → Res β} {a : α} {b : β} (h1 : r = .ok a) (h2 : k a = .ok b) :
    (r >>= k) = .ok b := by
  rw [h1, ok_bind, h2]

/-- A block read from the start of one block to the start of another. -/
def span {β : Type} (d : TableData) (a b : Res (Nat × Nat)) (k : Words → Res β) : Res β :=
  a >>= fun r => b >>= fun s => sub d.xss r.1 s.1 >>= k

theorem span_eq {d d' : TableData} (hf : d.SameFrame d') {β : Type} {a b : Res (Nat × Nat)} (h : d.SameUpTo d' a b)
    (k : Words → Res β) : span d' a b k = span d a b k := by
  unfold span
  cases e : a with
  | error _ => rfl
  | ok r =>
      cases e' : b with
      | error _ => rfl
      | ok s =>
          rw [ok_bind, ok_bind, ok_bind, ok_bind]
          have : sub d'.xss r.1 s.1 = sub d.xss r.1 s.1 := words_eq hf (h r s e e')
          rw [this]

theorem span_ok {d : TableData} {β : Type} {a b : Res (Nat × Nat)} {k : Words → Res β} {r s : Nat × Nat}
    {w : Words} {v : β} (h1 : a = .ok r) (h2 : b = .ok s) (h3 : sub d.xss r.1 s.1 = .ok w) (h4 : k w = .ok v) :
    span d a b k = .ok v := by
  unfold span; rw [h1, ok_bind, h2, ok_bind, h3, ok_bind, h4]

theorem onlyIf_cases {α : Type} {c : Bool} {r : Res α} {o : Option α} (h : CE.onlyIf c r = .ok o) :
    (c = false ∧ o = none) ∨ ∃ a, c = true ∧ r = .ok a ∧ o = some a := by
  unfold CE.onlyIf at h
  cases c with
  | false => exact .inl ⟨rfl, (Except.ok.inj h).symm⟩
  | true =>
      obtain ⟨a, h1, h2⟩ := bind_eq_ok.mp h
      exact .inr ⟨a, rfl, h1, (Except.ok.inj h2).symm⟩

theorem onlyIf_none {α : Type} {c : Bool} {r : Res α} (h : c = false) : CE.onlyIf c r = .ok none := by
  subst h; rfl

theorem onlyIf_some {α : Type} {c : Bool} {r : Res α} {a : α} (h : c = true) (h' : r = .ok a) :
    CE.onlyIf c r = .ok (some a) := by
  subst h; subst h'; rfl

/-! ### Continuous energy tables -/

open CE in
/-- What the blocks of a continuous energy table are made from. -/
structure CEMade (d : TableData) (t : CE) : Prop where
  esz : (d.count 3 >>= fun n => one d (block d 1) fun w => ESZ.ofRange w n) = .ok t.esz
  nu : (d.JXS 2 >>= fun j => onlyIf (decide (j > 0)) (one d (block d 2) NU.ofRange)) = .ok t.nu
  mtr : (d.count 4 >>= fun n => one d (block d 3) fun w => MTR.ofRange w n) = .ok t.mtr
  lqr : (d.count 4 >>= fun n => one d (block d 4) fun w => LQR.ofRange w n) = .ok t.lqr
  tyr : (d.count 4 >>= fun n => one d (block d 5) fun w => TYR.ofRange w n) = .ok t.tyr
  sig : (d.count 4 >>= fun n => two d (block d 6) (block d 7) fun p => SIG.ofRange p.1 p.2 n) = .ok t.sig
  ang : (d.count 5 >>= fun n => two d (block d 8) (block d 9) fun p => AngularBlock.ofRange p.1 p.2 n true) = .ok t.ang
  dlw : (d.count 5 >>= fun n => two d (block d 10) (block d 11) fun p => DLW.ofRange p.1 p.2 t.tyr n) = .ok t.dlw
  gpd : (d.count 6 >>= fun n => d.count 3 >>= fun m => onlyIf (decide (n > 0)) (one d (block d 12) fun w => GPD.ofRange w m)) =
    .ok t.gpd
  mtrp : (d.count 6 >>= fun n => onlyIf (decide (n > 0)) (one d (block d 13) fun w => MTR.ofRange w n)) = .ok t.mtrp
  sigp : (d.count 6 >>= fun n => onlyIf (decide (n > 0)) (two d (block d 14) (block d 15) fun p => SIGP.ofRange p.1 p.2 n)) =
    .ok t.sigp
  andp : (d.count 6 >>= fun n => onlyIf (decide (n > 0)) (two d (block d 16) (block d 17) fun p =>
    AngularBlock.ofRange p.1 p.2 n false)) = .ok t.andp
  dlwp : (d.count 6 >>= fun n => onlyIf (decide (n > 0)) (two d (block d 18) (block d 19) fun p =>
    DLWH.ofRange p.1 p.2 none n)) = .ok t.dlwp
  yp : (d.count 6 >>= fun n => onlyIf (decide (n > 0)) (one d (block d 20) YP.ofRange)) = .ok t.yp
  unr : (d.JXS 23 >>= fun j => onlyIf (decide (j > 0)) (one d (block d 23) UNR.ofRange)) = .ok t.unr
  dnu : (d.JXS 24 >>= fun j => onlyIf (decide (j > 0)) (one d (block d 24) NU.ofRange)) = .ok t.dnu
  bdd : (d.count 8 >>= fun n => onlyIf (decide (n > 0)) (one d (block d 25) fun w => BDD.ofRange w n)) = .ok t.bdd
  dned : (d.count 8 >>= fun n => onlyIf (decide (n > 0)) (two d (block d 26) (block d 27) fun p =>
    DLWH.ofRange p.1 p.2 none n)) = .ok t.dned
  ptype : (d.count 7 >>= fun n => onlyIf (decide (n > 0)) (one d (block d 30) fun w => PTYPE.ofRange w n)) = .ok t.ptype
  ntro : (d.count 7 >>= fun n => onlyIf (decide (n > 0)) (one d (block d 31) fun w => NTRO.ofRange w n)) = .ok t.ntro
  ixs : (d.count 7 >>= fun n => onlyIf (decide (n > 0)) (one d (block d 32) fun w => IXS.ofRange w n)) = .ok t.ixs
  particles : ∀ ntro ixs, t.ntro = some ntro → t.ixs = some ixs →
    (d.count 7 >>= fun n => (List.range' 1 n).mapM (readParticle d ntro ixs)) = .ok t.particles

theorem made {zaid : List Char} {d : TableData} {t : CE} (h : CE.generateBlocks zaid d = .ok t) :
    t.data = d ∧ CEMade d t := by
  unfold CE.generateBlocks at h
  obtain ⟨p, hp, h⟩ := bind_eq_ok.mp h
  obtain ⟨np, hnp, h⟩ := bind_eq_ok.mp h
  obtain ⟨ph, hph, h⟩ := bind_eq_ok.mp h
  obtain ⟨j23, hj23, h⟩ := bind_eq_ok.mp h
  obtain ⟨unr, hunr, h⟩ := bind_eq_ok.mp h
  obtain ⟨j24, hj24, h⟩ := bind_eq_ok.mp h
  obtain ⟨dnu, hdnu, h⟩ := bind_eq_ok.mp h
  obtain ⟨nd, hnd, h⟩ := bind_eq_ok.mp h
  obtain ⟨de, hde, h⟩ := bind_eq_ok.mp h
  obtain ⟨ns, hns, h⟩ := bind_eq_ok.mp h
  obtain ⟨se, hse, h⟩ := bind_eq_ok.mp h
  obtain rfl := Except.ok.inj h
  unfold CE.readPrincipal at hp
  obtain ⟨ntr, hntr, hp⟩ := bind_eq_ok.mp hp
  obtain ⟨nr, hnr, hp⟩ := bind_eq_ok.mp hp
  obtain ⟨r1, a1, hp⟩ := bind_eq_ok.mp hp
  obtain ⟨w1, b1, hp⟩ := bind_eq_ok.mp hp
  obtain ⟨nes, hnes, hp⟩ := bind_eq_ok.mp hp
  obtain ⟨esz, hesz, hp⟩ := bind_eq_ok.mp hp
  obtain ⟨j2, hj2, hp⟩ := bind_eq_ok.mp hp
  obtain ⟨nu, hnu, hp⟩ := bind_eq_ok.mp hp
  obtain ⟨r3, a3, hp⟩ := bind_eq_ok.mp hp
  obtain ⟨w3, b3, hp⟩ := bind_eq_ok.mp hp
  obtain ⟨mtr, hmtr, hp⟩ := bind_eq_ok.mp hp
  obtain ⟨r4, a4, hp⟩ := bind_eq_ok.mp hp
  obtain ⟨w4, b4, hp⟩ := bind_eq_ok.mp hp
  obtain ⟨lqr, hlqr, hp⟩ := bind_eq_ok.mp hp
  obtain ⟨r5, a5, hp⟩ := bind_eq_ok.mp hp
  obtain ⟨w5, b5, hp⟩ := bind_eq_ok.mp hp
  obtain ⟨tyr, htyr, hp⟩ := bind_eq_ok.mp hp
  obtain ⟨r6, a6, hp⟩ := bind_eq_ok.mp hp
  obtain ⟨r7, a7, hp⟩ := bind_eq_ok.mp hp
  obtain ⟨p6, b6, hp⟩ := bind_eq_ok.mp hp
  obtain ⟨sig, hsig, hp⟩ := bind_eq_ok.mp hp
  obtain ⟨r8, a8, hp⟩ := bind_eq_ok.mp hp
  obtain ⟨r9, a9, hp⟩ := bind_eq_ok.mp hp
  obtain ⟨p8, b8, hp⟩ := bind_eq_ok.mp hp
  obtain ⟨ang, hang, hp⟩ := bind_eq_ok.mp hp
  obtain ⟨r10, a10, hp⟩ := bind_eq_ok.mp hp
  obtain ⟨r11, a11, hp⟩ := bind_eq_ok.mp hp
  obtain ⟨p10, b10, hp⟩ := bind_eq_ok.mp hp
  obtain ⟨dlw, hdlw, hp⟩ := bind_eq_ok.mp hp
  obtain rfl := Except.ok.inj hp
  dsimp only
  refine ⟨rfl, bind_ok hnes (one_ok a1 b1 hesz), bind_ok hj2 hnu, bind_ok hntr (one_ok a3 b3 hmtr),
    bind_ok hntr (one_ok a4 b4 hlqr), bind_ok hntr (one_ok a5 b5 htyr), bind_ok hntr (two_ok a6 a7 b6 hsig),
    bind_ok hnr (two_ok a8 a9 b8 hang), bind_ok hnr (two_ok a10 a11 b10 hdlw), ?gpd, ?mtrp, ?sigp, ?andp, ?dlwp, ?yp,
    bind_ok hj23 hunr, bind_ok hj24 hdnu, ?bdd, ?dned, ?ptype, ?ntro, ?ixs, ?particles⟩
  case gpd | mtrp | sigp | andp | dlwp | yp =>
    rcases onlyIf_cases hph with ⟨c, rfl⟩ | ⟨x, c, hx, rfl⟩
    · first
        | exact bind_ok hnp (onlyIf_none c)
        | exact bind_ok hnp (bind_ok hnes (onlyIf_none c))
    · unfold CE.readPhotons at hx
      obtain ⟨m, hm, hx⟩ := bind_eq_ok.mp hx
      obtain ⟨n, hn, hx⟩ := bind_eq_ok.mp hx
      obtain rfl := Except.ok.inj (hn.symm.trans hnp)
      obtain ⟨r1, a1, hx⟩ := bind_eq_ok.mp hx
      obtain ⟨w1, b1, hx⟩ := bind_eq_ok.mp hx
      obtain ⟨x1, c1, hx⟩ := bind_eq_ok.mp hx
      obtain ⟨r2, a2, hx⟩ := bind_eq_ok.mp hx
      obtain ⟨w2, b2, hx⟩ := bind_eq_ok.mp hx
      obtain ⟨x2, c2, hx⟩ := bind_eq_ok.mp hx
      obtain ⟨r3, a3, hx⟩ := bind_eq_ok.mp hx
      obtain ⟨s3, a3', hx⟩ := bind_eq_ok.mp hx
      obtain ⟨p3, b3, hx⟩ := bind_eq_ok.mp hx
      obtain ⟨x3, c3, hx⟩ := bind_eq_ok.mp hx
      obtain ⟨r4, a4, hx⟩ := bind_eq_ok.mp hx
      obtain ⟨s4, a4', hx⟩ := bind_eq_ok.mp hx
      obtain ⟨p4, b4, hx⟩ := bind_eq_ok.mp hx
      obtain ⟨x4, c4, hx⟩ := bind_eq_ok.mp hx
      obtain ⟨r5, a5, hx⟩ := bind_eq_ok.mp hx
      obtain ⟨s5, a5', hx⟩ := bind_eq_ok.mp hx
      obtain ⟨p5, b5, hx⟩ := bind_eq_ok.mp hx
      obtain ⟨x5, c5, hx⟩ := bind_eq_ok.mp hx
      obtain ⟨r6, a6, hx⟩ := bind_eq_ok.mp hx
      obtain ⟨w6, b6, hx⟩ := bind_eq_ok.mp hx
      obtain ⟨x6, c6, hx⟩ := bind_eq_ok.mp hx
      obtain rfl := Except.ok.inj hx
      first
        | exact bind_ok hn (bind_ok hm (onlyIf_some c (one_ok a1 b1 c1)))
        | exact bind_ok hn (onlyIf_some c (one_ok a2 b2 c2))
        | exact bind_ok hn (onlyIf_some c (two_ok a3 a3' b3 c3))
        | exact bind_ok hn (onlyIf_some c (two_ok a4 a4' b4 c4))
        | exact bind_ok hn (onlyIf_some c (two_ok a5 a5' b5 c5))
        | exact bind_ok hn (onlyIf_some c (one_ok a6 b6 c6))
  case bdd | dned =>
    rcases onlyIf_cases hde with ⟨c, rfl⟩ | ⟨x, c, hx, rfl⟩
    · exact bind_ok hnd (onlyIf_none c)
    · unfold CE.readDelayed at hx
      obtain ⟨n, hn, hx⟩ := bind_eq_ok.mp hx
      obtain rfl := Except.ok.inj (hn.symm.trans hnd)
      obtain ⟨r1, a1, hx⟩ := bind_eq_ok.mp hx
      obtain ⟨w1, b1, hx⟩ := bind_eq_ok.mp hx
      obtain ⟨x1, c1, hx⟩ := bind_eq_ok.mp hx
      obtain ⟨r3, a3, hx⟩ := bind_eq_ok.mp hx
      obtain ⟨s3, a3', hx⟩ := bind_eq_ok.mp hx
      obtain ⟨p3, b3, hx⟩ := bind_eq_ok.mp hx
      obtain ⟨x3, c3, hx⟩ := bind_eq_ok.mp hx
      obtain rfl := Except.ok.inj hx
      first
        | exact bind_ok hn (onlyIf_some c (one_ok a1 b1 c1))
        | exact bind_ok hn (onlyIf_some c (two_ok a3 a3' b3 c3))
  case ptype | ntro | ixs | particles =>
    rcases onlyIf_cases hse with ⟨c, rfl⟩ | ⟨x, c, hx, rfl⟩
    · first
        | exact bind_ok hns (onlyIf_none c)
        | exact fun _ _ e => nomatch e
    · unfold CE.readSecondaries at hx
      obtain ⟨n, hn, hx⟩ := bind_eq_ok.mp hx
      obtain rfl := Except.ok.inj (hn.symm.trans hns)
      obtain ⟨r1, a1, hx⟩ := bind_eq_ok.mp hx
      obtain ⟨w1, b1, hx⟩ := bind_eq_ok.mp hx
      obtain ⟨x1, c1, hx⟩ := bind_eq_ok.mp hx
      obtain ⟨r2, a2, hx⟩ := bind_eq_ok.mp hx
      obtain ⟨w2, b2, hx⟩ := bind_eq_ok.mp hx
      obtain ⟨x2, c2, hx⟩ := bind_eq_ok.mp hx
      obtain ⟨r3, a3, hx⟩ := bind_eq_ok.mp hx
      obtain ⟨w3, b3, hx⟩ := bind_eq_ok.mp hx
      obtain ⟨x3, c3, hx⟩ := bind_eq_ok.mp hx
      obtain ⟨x4, c4, hx⟩ := bind_eq_ok.mp hx
      obtain rfl := Except.ok.inj hx
      first
        | exact bind_ok hn (onlyIf_some c (one_ok a1 b1 c1))
        | exact bind_ok hn (onlyIf_some c (one_ok a2 b2 c2))
        | exact bind_ok hn (onlyIf_some c (one_ok a3 b3 c3))
        | exact fun ntro ixs e e' => by
            obtain rfl := Option.some.inj e
            obtain rfl := Option.some.inj e'
            exact bind_ok hn c4

open CE in
/-- What the blocks of a secondary particle are made from. -/
structure ParticleMade (d : TableData) (ntro : NTRO) (ixs : IXS) (i : Nat) (p : ACE.Particle) : Prop where
  hpd : one d (particleBlock d ixs i 1) HPD.ofRange = .ok p.hpd
  mtrh : (ntro.NP i >>= fun n => one d (particleBlock d ixs i 2) fun w => MTR.ofRange w n) = .ok p.mtrh
  tyrh : (ntro.NP i >>= fun n => one d (particleBlock d ixs i 3) fun w => TYR.ofRange w n) = .ok p.tyrh
  sigh : (ntro.NP i >>= fun n => two d (particleBlock d ixs i 4) (particleBlock d ixs i 5) fun p =>
    SIGH.ofRange p.1 p.2 n) = .ok p.sigh
  andh : (ntro.NP i >>= fun n => two d (particleBlock d ixs i 6) (particleBlock d ixs i 7) fun p =>
    AngularBlock.ofRange p.1 p.2 n false) = .ok p.andh
  dlwh : (ntro.NP i >>= fun n => two d (particleBlock d ixs i 8) (particleBlock d ixs i 9) fun q =>
    DLWH.ofRange q.1 q.2 (some p.tyrh) n) = .ok p.dlwh
  yh : one d (particleBlock d ixs i 10) YP.ofRange = .ok p.yh

theorem particleMade {d : TableData} {ntro : NTRO} {ixs : IXS} {i : Nat} {p : ACE.Particle}
    (h : CE.readParticle d ntro ixs i = .ok p) : ParticleMade d ntro ixs i p := by
  unfold CE.readParticle at h
  obtain ⟨r0, a0, h⟩ := bind_eq_ok.mp h
  obtain ⟨w0, b0, h⟩ := bind_eq_ok.mp h
  obtain ⟨x0, c0, h⟩ := bind_eq_ok.mp h
  obtain ⟨np, hnp, h⟩ := bind_eq_ok.mp h
  obtain ⟨r2, a2, h⟩ := bind_eq_ok.mp h
  obtain ⟨w2, b2, h⟩ := bind_eq_ok.mp h
  obtain ⟨x2, c2, h⟩ := bind_eq_ok.mp h
  obtain ⟨r3, a3, h⟩ := bind_eq_ok.mp h
  obtain ⟨w3, b3, h⟩ := bind_eq_ok.mp h
  obtain ⟨x3, c3, h⟩ := bind_eq_ok.mp h
  obtain ⟨r4, a4, h⟩ := bind_eq_ok.mp h
  obtain ⟨s4, e4, h⟩ := bind_eq_ok.mp h
  obtain ⟨p4, b4, h⟩ := bind_eq_ok.mp h
  obtain ⟨x4, c4, h⟩ := bind_eq_ok.mp h
  obtain ⟨r5, a5, h⟩ := bind_eq_ok.mp h
  obtain ⟨s5, e5, h⟩ := bind_eq_ok.mp h
  obtain ⟨p5, b5, h⟩ := bind_eq_ok.mp h
  obtain ⟨x5, c5, h⟩ := bind_eq_ok.mp h
  obtain ⟨r6, a6, h⟩ := bind_eq_ok.mp h
  obtain ⟨s6, e6, h⟩ := bind_eq_ok.mp h
  obtain ⟨p6, b6, h⟩ := bind_eq_ok.mp h
  obtain ⟨x6, c6, h⟩ := bind_eq_ok.mp h
  obtain ⟨r7, a7, h⟩ := bind_eq_ok.mp h
  obtain ⟨w7, b7, h⟩ := bind_eq_ok.mp h
  obtain ⟨x7, c7, h⟩ := bind_eq_ok.mp h
  obtain rfl := Except.ok.inj h
  exact ⟨one_ok a0 b0 c0, bind_ok hnp (one_ok a2 b2 c2), bind_ok hnp (one_ok a3 b3 c3), bind_ok hnp (two_ok a4 e4 b4 c4),
    bind_ok hnp (two_ok a5 e5 b5 c5), bind_ok hnp (two_ok a6 e6 b6 c6), one_ok a7 b7 c7⟩

theorem particleBlock_eq {d d' : TableData} (hf : d.SameFrame d') (ixs : IXS) (i k : Nat) :
    CE.particleBlock d' ixs i k = CE.particleBlock d ixs i k := by
  unfold CE.particleBlock
  simp only [range_eq hf]

theorem range'_get {f : Nat → Res α} {n i : Nat} {ps : List α} {p : α} (h : (List.range' 1 n).mapM f = .ok ps)
    (hp : ps[i]? = some p) : f (i + 1) = .ok p := by
  obtain ⟨a, ha, e⟩ := Props.C63.mapM_get f _ ps h i p hp
  obtain ⟨_, e'⟩ := List.getElem?_eq_some_iff.mp ha
  rw [List.getElem_range', Nat.one_mul, Nat.add_comm] at e'
  rw [e']
  exact e

/-! ### Photonuclear tables -/

theorem paBlock_eq {d d' : TableData} (hf : d.SameFrame d') (i : Nat) : PA.block d' i = PA.block d i := by
  unfold PA.block
  simp only [locator_eq hf, hf.jxs, range_eq hf]

theorem pnParticleBlock_eq {d d' : TableData} (hf : d.SameFrame d') (ixs : IXSU) (i k : Nat) :
    PN.particleBlock d' ixs i k = PN.particleBlock d ixs i k := by
  unfold PN.particleBlock
  simp only [range_eq hf]

open PN in
/-- What the blocks of a secondary particle of a photonuclear table are made from. -/
structure PNParticleMade (d : TableData) (ixs : IXSU) (i : Nat) (p : PN.Particle) : Prop where
  pxs : one d (particleBlock d ixs i 3) CrossSectionData.ofRange = .ok p.pxs
  phn : one d (particleBlock d ixs i 4) CrossSectionData.ofRange = .ok p.phn
  mtrh : (ixs.NP i >>= fun n => one d (particleBlock d ixs i 5) fun w => MTR.ofRange w n) = .ok p.mtrh
  tyrh : (ixs.NP i >>= fun n => one d (particleBlock d ixs i 6) fun w => TYR.ofRange w n) = .ok p.tyrh
  sigh : (ixs.NP i >>= fun n => two d (particleBlock d ixs i 7) (particleBlock d ixs i 8) fun p =>
    SIGH.ofRange p.1 p.2 n) = .ok p.sigh
  andh : (ixs.NP i >>= fun n => two d (particleBlock d ixs i 9) (particleBlock d ixs i 10) fun p =>
    AngularBlock.ofRange p.1 p.2 n false) = .ok p.andh
  dlwh : (ixs.NP i >>= fun n => two d (particleBlock d ixs i 11) (particleBlock d ixs i 12) fun q =>
    DLWH.ofRange q.1 q.2 (some p.tyrh) n) = .ok p.dlwh

theorem pnParticleMade {d : TableData} {ixs : IXSU} {i : Nat} {p : PN.Particle}
    (h : PN.readParticle d ixs i = .ok p) : PNParticleMade d ixs i p := by
  unfold PN.readParticle at h
  obtain ⟨r0, a0, h⟩ := bind_eq_ok.mp h
  obtain ⟨w0, b0, h⟩ := bind_eq_ok.mp h
  obtain ⟨x0, c0, h⟩ := bind_eq_ok.mp h
  obtain ⟨r1, a1, h⟩ := bind_eq_ok.mp h
  obtain ⟨w1, b1, h⟩ := bind_eq_ok.mp h
  obtain ⟨x1, c1, h⟩ := bind_eq_ok.mp h
  obtain ⟨np, hnp, h⟩ := bind_eq_ok.mp h
  obtain ⟨r3, a3, h⟩ := bind_eq_ok.mp h
  obtain ⟨w3, b3, h⟩ := bind_eq_ok.mp h
  obtain ⟨x3, c3, h⟩ := bind_eq_ok.mp h
  obtain ⟨r4, a4, h⟩ := bind_eq_ok.mp h
  obtain ⟨w4, b4, h⟩ := bind_eq_ok.mp h
  obtain ⟨x4, c4, h⟩ := bind_eq_ok.mp h
  obtain ⟨r5, a5, h⟩ := bind_eq_ok.mp h
  obtain ⟨s5, e5, h⟩ := bind_eq_ok.mp h
  obtain ⟨p5, b5, h⟩ := bind_eq_ok.mp h
  obtain ⟨x5, c5, h⟩ := bind_eq_ok.mp h
  obtain ⟨r6, a6, h⟩ := bind_eq_ok.mp h
  obtain ⟨s6, e6, h⟩ := bind_eq_ok.mp h
  obtain ⟨p6, b6, h⟩ := bind_eq_ok.mp h
  obtain ⟨x6, c6, h⟩ := bind_eq_ok.mp h
  obtain ⟨r7, a7, h⟩ := bind_eq_ok.mp h
  obtain ⟨s7, e7, h⟩ := bind_eq_ok.mp h
  obtain ⟨p7, b7, h⟩ := bind_eq_ok.mp h
  obtain ⟨x7, c7, h⟩ := bind_eq_ok.mp h
  obtain rfl := Except.ok.inj h
  exact ⟨one_ok a0 b0 c0, one_ok a1 b1 c1, bind_ok hnp (one_ok a3 b3 c3), bind_ok hnp (one_ok a4 b4 c4),
    bind_ok hnp (two_ok a5 e5 b5 c5), bind_ok hnp (two_ok a6 e6 b6 c6), bind_ok hnp (two_ok a7 e7 b7 c7)⟩

open PN in
/-- What the blocks of a photonuclear table are made from. -/
structure PNMade (d : TableData) (t : PN) : Prop where
  eszu : (d.JXS 4 >>= fun j => d.count 3 >>= fun n => span d (block d 1) (block d 6) fun w =>
    ESZU.ofRange w n (arraysOf j)) = .ok t.eszu
  mtr : (d.count 4 >>= fun n => one d (block d 6) fun w => MTR.ofRange w n) = .ok t.mtr
  lqr : (d.count 4 >>= fun n => one d (block d 7) fun w => LQR.ofRange w n) = .ok t.lqr
  sig : (d.count 4 >>= fun n => two d (block d 8) (block d 9) fun p => SIG.ofRange p.1 p.2 n) = .ok t.sig
  ixsu : (d.count 5 >>= fun n => CE.onlyIf (decide (n > 0)) (one d (block d 10) fun w => IXSU.ofRange w n)) = .ok t.ixsu
  particles : ∀ ixs, t.ixsu = some ixs → (d.count 5 >>= fun n => (List.range' 1 n).mapM (readParticle d ixs)) =
    .ok t.particles

theorem pnMade {zaid : List Char} {d : TableData} {t : PN} (h : PN.generateBlocks zaid d = .ok t) :
    t.data = d ∧ PNMade d t := by
  unfold PN.generateBlocks at h
  obtain ⟨j4, h4, h⟩ := bind_eq_ok.mp h
  obtain ⟨b1, e1, h⟩ := bind_eq_ok.mp h
  obtain ⟨b6, e6, h⟩ := bind_eq_ok.mp h
  obtain ⟨w1, a1, h⟩ := bind_eq_ok.mp h
  obtain ⟨n3, h3, h⟩ := bind_eq_ok.mp h
  obtain ⟨eszu, heszu, h⟩ := bind_eq_ok.mp h
  obtain ⟨ntr, hntr, h⟩ := bind_eq_ok.mp h
  obtain ⟨w6, a6, h⟩ := bind_eq_ok.mp h
  obtain ⟨mtr, hmtr, h⟩ := bind_eq_ok.mp h
  obtain ⟨r7, e7, h⟩ := bind_eq_ok.mp h
  obtain ⟨w7, a7, h⟩ := bind_eq_ok.mp h
  obtain ⟨lqr, hlqr, h⟩ := bind_eq_ok.mp h
  obtain ⟨r8, e8, h⟩ := bind_eq_ok.mp h
  obtain ⟨r9, e9, h⟩ := bind_eq_ok.mp h
  obtain ⟨p8, a8, h⟩ := bind_eq_ok.mp h
  obtain ⟨sig, hsig, h⟩ := bind_eq_ok.mp h
  obtain ⟨n5, h5, h⟩ := bind_eq_ok.mp h
  obtain ⟨s, hs, h⟩ := bind_eq_ok.mp h
  obtain rfl := Except.ok.inj h
  refine ⟨rfl, bind_ok h4 (bind_ok h3 (span_ok e1 e6 a1 heszu)), bind_ok hntr (one_ok e6 a6 hmtr), bind_ok hntr (one_ok e7 a7 hlqr),
    bind_ok hntr (two_ok e8 e9 a8 hsig), ?_, ?_⟩
  all_goals
    rcases onlyIf_cases hs with ⟨c, rfl⟩ | ⟨x, c, hx, rfl⟩
    · first
        | exact bind_ok h5 (onlyIf_none c)
        | exact fun _ e => nomatch e
    · unfold PN.readSecondaries at hx
      obtain ⟨r1, a1, hx⟩ := bind_eq_ok.mp hx
      obtain ⟨w1, b1, hx⟩ := bind_eq_ok.mp hx
      obtain ⟨x1, c1, hx⟩ := bind_eq_ok.mp hx
      obtain ⟨x2, c2, hx⟩ := bind_eq_ok.mp hx
      obtain rfl := Except.ok.inj hx
      first
        | exact bind_ok h5 (onlyIf_some c (one_ok a1 b1 c1))
        | exact fun ixs e => by
            obtain rfl := Option.some.inj e
            exact bind_ok h5 c2

/-! ### Dosimetry tables -/

/-- What the blocks of a dosimetry table are made from. -/
structure DosMade (d : TableData) (t : Dosimetry) : Prop where
  mtr : (d.count 4 >>= fun n => span d (d.offset 3 >>= fun o => pure (o, 0)) (d.offset 6 >>= fun o => pure (o, 0)) fun w =>
    MTR.ofRange w n) = .ok t.mtr
  sigd : (d.count 4 >>= fun n => two d (d.offset 6 >>= fun o => pure (o, 0)) (d.offset 7 >>= fun o => pure (o, d.xss.length))
    fun p => SIGD.ofRange p.1 p.2 n) = .ok t.sigd

theorem offset_eq {d d' : TableData} (hf : d.SameFrame d') (i : Nat) : d'.offset i = d.offset i := by
  unfold TableData.offset
  simp only [JXS_eq hf, hf.size]

theorem dosMade {zaid : List Char} {d : TableData} {t : Dosimetry} (h : Dosimetry.generateBlocks zaid d = .ok t) :
    t.data = d ∧ DosMade d t := by
  unfold Dosimetry.generateBlocks at h
  obtain ⟨m, e3, h⟩ := bind_eq_ok.mp h
  obtain ⟨l, e6, h⟩ := bind_eq_ok.mp h
  obtain ⟨x, e7, h⟩ := bind_eq_ok.mp h
  obtain ⟨n, hn, h⟩ := bind_eq_ok.mp h
  obtain ⟨w, hw, h⟩ := bind_eq_ok.mp h
  obtain ⟨b, hb, h⟩ := bind_eq_ok.mp h
  obtain ⟨p, hp, h⟩ := bind_eq_ok.mp h
  obtain ⟨c, hc, h⟩ := bind_eq_ok.mp h
  obtain rfl := Except.ok.inj h
  have hp' : CE.located d (l, 0) (x, d.xss.length) = .ok p := hp
  exact ⟨rfl, bind_ok hn (span_ok (r := (m, 0)) (s := (l, 0)) (bind_ok e3 rfl) (bind_ok e6 rfl) hw hb),
    bind_ok hn (two_ok (r := (l, 0)) (s := (x, d.xss.length)) (bind_ok e6 rfl) (bind_ok e7 rfl) hp' hc)⟩

/-! ### Thermal scattering tables -/

theorem tsBlock_eq {d d' : TableData} (hf : d.SameFrame d') (i : Nat) : TS.block d' i = TS.block d i := by
  unfold TS.block
  simp only [locator_eq hf, hf.jxs, range_eq hf]

open TS in
/-- What the blocks of a thermal scattering table are made from. -/
structure TSMade (d : TableData) (t : TS) : Prop where
  itie : (d.JXS 1 >>= fun j => if j > 0 then one d (block d 1) ITIE.ofRange else ITIE.ofRange []) = .ok t.itie
  itxe : (d.JXS 1 >>= fun j => if j > 0 then
      d.count 7 >>= fun ifeng => d.count 3 >>= fun nil => d.count 4 >>= fun nieb => t.itie.NE >>= fun ne =>
        d.locator 3 >>= fun locb => one d (block d 3) fun w => ITXE.ofRange ifeng (if ifeng < 2 then nieb else 0)
          (if ifeng < 2 then (nil + 1) % 4294967296 else (nil + 4294967295) % 4294967296) ne locb w
    else ITXE.ofRange 0 0 0 0 1 []) = .ok t.itxe
  itce : (d.count 5 >>= fun n => CE.onlyIf (decide (n > 3)) (one d (block d 4) ITIE.ofRange)) = .ok t.itce
  itca : ∀ b, t.itce = some b → (d.signed 6 >>= fun ncl => if ncl + 1 ≠ 0 then b.NE >>= fun ne =>
      one d (block d 6) fun w => ITCA.ofRange w ne (sizeOfInt (ncl + 1)) >>= fun a => pure (some a) else pure none) =
    .ok t.itca
  itcei : (d.count 5 >>= fun n => CE.onlyIf (decide (n = 3 ∨ n = 5)) (one d (block d (if n = 3 then 4 else 7)) ITIE.ofRange)) =
    .ok t.itcei
  itcai : ∀ b, t.itcei = some b → (d.count 5 >>= fun n => d.signed (if n = 3 then 6 else 8) >>= fun ncl => b.NE >>= fun ne =>
      one d (block d (if n = 3 then 6 else 9)) fun w => ITCA.ofRange w ne (sizeOfInt (ncl + 1)) >>= fun a => pure (some a)) =
    .ok t.itcai
  none_itca : t.itce = none → t.itca = none
  none_itcai : t.itcei = none → t.itcai = none

theorem tsMade {zaid : List Char} {d : TableData} {t : TS} (h : TS.generateBlocks zaid d = .ok t) :
    t.data = d ∧ TSMade d t := by
  unfold TS.generateBlocks at h
  obtain ⟨j, hj, h⟩ := bind_eq_ok.mp h
  obtain ⟨itie, h1, h⟩ := bind_eq_ok.mp h
  obtain ⟨itxe, h2, h⟩ := bind_eq_ok.mp h
  obtain ⟨n, h5, h⟩ := bind_eq_ok.mp h
  obtain ⟨c, hc, h⟩ := bind_eq_ok.mp h
  obtain ⟨i, hi, h⟩ := bind_eq_ok.mp h
  obtain rfl := Except.ok.inj h
  refine ⟨rfl, bind_ok hj ?_, bind_ok hj ?_, ?_, ?_, ?_, ?_, ?_, ?_⟩
  · unfold TS.readITIE at h1
    by_cases hc : j > 0
    · rw [if_pos hc]
      rw [if_pos (decide_eq_true hc)] at h1
      exact h1
    · rw [if_neg hc]
      rw [if_neg (by simpa using hc)] at h1
      exact h1
  · unfold TS.readITXE at h2
    by_cases hc : j > 0
    · rw [if_pos hc]
      rw [if_pos (decide_eq_true hc)] at h2
      obtain ⟨r, e1, h2⟩ := bind_eq_ok.mp h2
      obtain ⟨ifeng, e2, h2⟩ := bind_eq_ok.mp h2
      obtain ⟨nil, e3, h2⟩ := bind_eq_ok.mp h2
      obtain ⟨nieb, e4, h2⟩ := bind_eq_ok.mp h2
      obtain ⟨ne, e5, h2⟩ := bind_eq_ok.mp h2
      obtain ⟨locb, e6, h2⟩ := bind_eq_ok.mp h2
      obtain ⟨w, e7, h2⟩ := bind_eq_ok.mp h2
      exact bind_ok e2 (bind_ok e3 (bind_ok e4 (bind_ok e5 (bind_ok e6 (one_ok e1 e7 h2)))))
    · rw [if_neg hc]
      rw [if_neg (by simpa using hc)] at h2
      exact h2
  all_goals
    first
      | (rcases onlyIf_cases hc with ⟨c, rfl⟩ | ⟨x, c, hx, rfl⟩
         · first
             | exact bind_ok h5 (onlyIf_none c)
             | (intro _ e; cases e; done)
             | exact fun _ => rfl
         · unfold TS.readCoherent at hx
           obtain ⟨r1, a1, hx⟩ := bind_eq_ok.mp hx
           obtain ⟨w1, b1, hx⟩ := bind_eq_ok.mp hx
           obtain ⟨x1, c1, hx⟩ := bind_eq_ok.mp hx
           obtain ⟨ncl, e6, hx⟩ := bind_eq_ok.mp hx
           split at hx
           · rename_i hn
             obtain ⟨r2, a2, hx⟩ := bind_eq_ok.mp hx
             obtain ⟨w2, b2, hx⟩ := bind_eq_ok.mp hx
             obtain ⟨ne, e7, hx⟩ := bind_eq_ok.mp hx
             obtain ⟨x2, c2, hx⟩ := bind_eq_ok.mp hx
             obtain rfl := Except.ok.inj hx
             first
               | exact bind_ok h5 (onlyIf_some c (one_ok a1 b1 c1))
               | exact fun b e => by
                   obtain rfl := Option.some.inj e
                   refine bind_ok e6 ?_
                   rw [if_pos hn]
                   exact bind_ok e7 (one_ok a2 b2 (bind_ok c2 rfl))
               | (intro e; cases e; done)
           · rename_i hn
             obtain rfl := Except.ok.inj hx
             first
               | exact bind_ok h5 (onlyIf_some c (one_ok a1 b1 c1))
               | exact fun b e => by
                   refine bind_ok e6 ?_
                   rw [if_neg hn]
                   rfl
               | (intro e; cases e; done))
      | (rcases onlyIf_cases hi with ⟨c, rfl⟩ | ⟨x, c, hx, rfl⟩
         · first
             | exact bind_ok h5 (onlyIf_none c)
             | (intro _ e; cases e; done)
             | exact fun _ => rfl
         · unfold TS.readIncoherent at hx
           obtain ⟨r1, a1, hx⟩ := bind_eq_ok.mp hx
           obtain ⟨w1, b1, hx⟩ := bind_eq_ok.mp hx
           obtain ⟨x1, c1, hx⟩ := bind_eq_ok.mp hx
           obtain ⟨ncl, e6, hx⟩ := bind_eq_ok.mp hx
           obtain ⟨r2, a2, hx⟩ := bind_eq_ok.mp hx
           obtain ⟨w2, b2, hx⟩ := bind_eq_ok.mp hx
           obtain ⟨ne, e7, hx⟩ := bind_eq_ok.mp hx
           obtain ⟨x2, c2, hx⟩ := bind_eq_ok.mp hx
           obtain rfl := Except.ok.inj hx
           first
             | exact bind_ok h5 (onlyIf_some c (one_ok a1 b1 c1))
             | exact fun b e => by
                 obtain rfl := Option.some.inj e
                 exact bind_ok h5 (bind_ok e6 (bind_ok e7 (one_ok a2 b2 (bind_ok c2 rfl))))
             | (intro e; cases e; done))

/-! ### Photoatomic tables -/

open PA in
/-- What the blocks of a photoatomic table are made from. -/
structure PAMade (d : TableData) (t : PA) : Prop where
  eszg : (d.count 3 >>= fun n => one d (block d 1) fun w => ESZG.ofRange w n) = .ok t.eszg
  jinc : one d (block d 2) JINC.ofRange = .ok t.jinc
  jcoh : one d (block d 3) JCOH.ofRange = .ok t.jcoh
  jflo : (d.count 4 >>= fun n => CE.onlyIf (decide (n > 0)) (one d (block d 4) fun w => JFLO.ofRange w n)) = .ok t.jflo
  lhnm : (d.count 3 >>= fun n => one d (block d 5) fun w => LHNM.ofRange w n) = .ok t.lhnm
  eps : (d.count 5 >>= fun n => CE.onlyIf (decide (n > 0)) (two d (block d 6) (block d 8) fun p => EPS.ofRange p.1 n)) =
    .ok t.eps
  swd : (d.count 5 >>= fun n => CE.onlyIf (decide (n > 0)) (two d (block d 9) (block d 10) fun p =>
    SWD.ofRange p.1 p.2 n)) = .ok t.swd
  subsh : (d.count 6 >>= fun m => CE.onlyIf (decide (m > 0)) (d.count 7 >>= fun n => span d (block d 11) (block d 16) fun w => SUBSH.ofRange w n)) = .ok t.subsh
  sphel : (d.count 6 >>= fun m => CE.onlyIf (decide (m > 0)) (d.count 7 >>= fun n => d.count 3 >>= fun k => one d (block d 16) fun w => SPHEL.ofRange w n k)) = .ok t.sphel
  xprob : (d.count 6 >>= fun m => CE.onlyIf (decide (m > 0)) (d.count 7 >>= fun n => two d (block d 17) (block d 18) fun p => XPROB.ofRange p.1 p.2 n)) = .ok t.xprob
  esze : (d.count 6 >>= fun m => CE.onlyIf (decide (m > 0)) (d.count 7 >>= fun n => d.count 8 >>= fun k => one d (block d 19) fun w => ESZE.ofRange w n k)) = .ok t.esze
  excit : (d.count 6 >>= fun m => CE.onlyIf (decide (m > 0)) (d.count 9 >>= fun n => one d (block d 20) fun w => EXCIT.ofRange w n)) = .ok t.excit
  elas : (d.count 6 >>= fun m => CE.onlyIf (decide (m > 0)) (d.count 10 >>= fun n => two d (block d 21) (block d 22) fun p => ElectronBlock.ofRange p.1 n)) = .ok t.elas
  breme : (d.count 6 >>= fun m => CE.onlyIf (decide (m > 0)) (d.count 11 >>= fun n => two d (block d 24) (block d 25) fun p => ElectronBlock.ofRange p.1 n)) = .ok t.breme
  breml : (d.count 6 >>= fun m => CE.onlyIf (decide (m > 0)) (d.count 12 >>= fun n => one d (block d 26) fun w => BREML.ofRange w n)) = .ok t.breml
  selas : t.breml.isSome = true → (d.count 6 >>= fun m => d.count 8 >>= fun n => CE.onlyIf (decide (m = 3)) (one d (block d 27)
    fun w => SELAS.ofRange w n)) = .ok t.selas
  none_selas : t.breml.isSome = false → t.selas = none
  eion : ∀ i b, t.eion[i]? = some b → ∃ n, d.count 7 = .ok n ∧ readEION d n (i + 1) = .ok b

theorem paMade {zaid : List Char} {d : TableData} {t : PA} (h : PA.generateBlocks zaid d = .ok t) :
    t.data = d ∧ PAMade d t := by
  unfold PA.generateBlocks at h
  obtain ⟨nes, hnes, h⟩ := bind_eq_ok.mp h
  obtain ⟨r1, a1, h⟩ := bind_eq_ok.mp h
  obtain ⟨w1, b1, h⟩ := bind_eq_ok.mp h
  obtain ⟨eszg, c1, h⟩ := bind_eq_ok.mp h
  obtain ⟨r2, a2, h⟩ := bind_eq_ok.mp h
  obtain ⟨w2, b2, h⟩ := bind_eq_ok.mp h
  obtain ⟨jinc, c2, h⟩ := bind_eq_ok.mp h
  obtain ⟨r3, a3, h⟩ := bind_eq_ok.mp h
  obtain ⟨w3, b3, h⟩ := bind_eq_ok.mp h
  obtain ⟨jcoh, c3, h⟩ := bind_eq_ok.mp h
  obtain ⟨nflo, hnflo, h⟩ := bind_eq_ok.mp h
  obtain ⟨jflo, c4, h⟩ := bind_eq_ok.mp h
  obtain ⟨r5, a5, h⟩ := bind_eq_ok.mp h
  obtain ⟨w5, b5, h⟩ := bind_eq_ok.mp h
  obtain ⟨lhnm, c5, h⟩ := bind_eq_ok.mp h
  obtain ⟨nsh, hnsh, h⟩ := bind_eq_ok.mp h
  obtain ⟨sh, hsh, h⟩ := bind_eq_ok.mp h
  obtain ⟨nepr, hnepr, h⟩ := bind_eq_ok.mp h
  obtain ⟨el, hel, h⟩ := bind_eq_ok.mp h
  obtain rfl := Except.ok.inj h
  refine ⟨rfl, bind_ok hnes (one_ok a1 b1 c1), one_ok a2 b2 c2, one_ok a3 b3 c3, bind_ok hnflo c4,
    bind_ok hnes (one_ok a5 b5 c5), ?eps, ?swd, ?subsh, ?sphel, ?xprob, ?esze, ?excit, ?elas, ?breme, ?breml, ?selas,
    ?none_selas, ?eion⟩
  case eps | swd =>
    rcases onlyIf_cases hsh with ⟨c, rfl⟩ | ⟨x, c, hx, rfl⟩
    · exact bind_ok hnsh (onlyIf_none c)
    · unfold PA.readShells at hx
      obtain ⟨l6, e6, hx⟩ := bind_eq_ok.mp hx
      obtain ⟨l8, e8, hx⟩ := bind_eq_ok.mp hx
      obtain ⟨w, ew, hx⟩ := bind_eq_ok.mp hx
      obtain ⟨x1, g1, hx⟩ := bind_eq_ok.mp hx
      obtain ⟨l9, e9, hx⟩ := bind_eq_ok.mp hx
      obtain ⟨l10, e10, hx⟩ := bind_eq_ok.mp hx
      obtain ⟨p, ep, hx⟩ := bind_eq_ok.mp hx
      obtain ⟨x2, g2, hx⟩ := bind_eq_ok.mp hx
      obtain rfl := Except.ok.inj hx
      have hl : CE.located d l6 l8 = .ok (w, l8.1 - l6.1) := bind_ok ew rfl
      first
        | exact bind_ok hnsh (onlyIf_some c (two_ok e6 e8 hl g1))
        | exact bind_ok hnsh (onlyIf_some c (two_ok e9 e10 ep g2))
  all_goals
    rcases onlyIf_cases hel with ⟨c, rfl⟩ | ⟨x, c, hx, rfl⟩
    · first
        | exact bind_ok hnepr (onlyIf_none c)
        | (intro e; exact absurd (show false = true from e) Bool.false_ne_true)
        | (intro e; exact absurd (show true = false from e).symm Bool.false_ne_true)
        | exact fun _ => rfl
        | (intro _ _ e; cases e; done)
    · unfold PA.readElectrons at hx
      obtain ⟨nssh, f7, hx⟩ := bind_eq_ok.mp hx
      obtain ⟨ne, f8, hx⟩ := bind_eq_ok.mp hx
      obtain ⟨s11, e11, hx⟩ := bind_eq_ok.mp hx
      obtain ⟨s16, e16, hx⟩ := bind_eq_ok.mp hx
      obtain ⟨v11, u11, hx⟩ := bind_eq_ok.mp hx
      obtain ⟨subsh, g11, hx⟩ := bind_eq_ok.mp hx
      obtain ⟨v16, u16, hx⟩ := bind_eq_ok.mp hx
      obtain ⟨n3, f3, hx⟩ := bind_eq_ok.mp hx
      obtain ⟨sphel, g16, hx⟩ := bind_eq_ok.mp hx
      obtain ⟨l17, e17, hx⟩ := bind_eq_ok.mp hx
      obtain ⟨l18, e18, hx⟩ := bind_eq_ok.mp hx
      obtain ⟨p17, u17, hx⟩ := bind_eq_ok.mp hx
      obtain ⟨xprob, g17, hx⟩ := bind_eq_ok.mp hx
      obtain ⟨l19, e19, hx⟩ := bind_eq_ok.mp hx
      obtain ⟨v19, u19, hx⟩ := bind_eq_ok.mp hx
      obtain ⟨esze, g19, hx⟩ := bind_eq_ok.mp hx
      obtain ⟨l20, e20, hx⟩ := bind_eq_ok.mp hx
      obtain ⟨v20, u20, hx⟩ := bind_eq_ok.mp hx
      obtain ⟨n9, f9, hx⟩ := bind_eq_ok.mp hx
      obtain ⟨excit, g20, hx⟩ := bind_eq_ok.mp hx
      obtain ⟨l21, e21, hx⟩ := bind_eq_ok.mp hx
      obtain ⟨l22, e22, hx⟩ := bind_eq_ok.mp hx
      obtain ⟨v21, u21, hx⟩ := bind_eq_ok.mp hx
      obtain ⟨n10, f10, hx⟩ := bind_eq_ok.mp hx
      obtain ⟨elas, g21, hx⟩ := bind_eq_ok.mp hx
      obtain ⟨eion, g23, hx⟩ := bind_eq_ok.mp hx
      obtain ⟨l24, e24, hx⟩ := bind_eq_ok.mp hx
      obtain ⟨l25, e25, hx⟩ := bind_eq_ok.mp hx
      obtain ⟨v24, u24, hx⟩ := bind_eq_ok.mp hx
      obtain ⟨n11, f11, hx⟩ := bind_eq_ok.mp hx
      obtain ⟨breme, g24, hx⟩ := bind_eq_ok.mp hx
      obtain ⟨l26, e26, hx⟩ := bind_eq_ok.mp hx
      obtain ⟨v26, u26, hx⟩ := bind_eq_ok.mp hx
      obtain ⟨n12, f12, hx⟩ := bind_eq_ok.mp hx
      obtain ⟨breml, g26, hx⟩ := bind_eq_ok.mp hx
      obtain ⟨selas, g27, hx⟩ := bind_eq_ok.mp hx
      obtain rfl := Except.ok.inj hx
      have h21 : CE.located d l21 l22 = .ok (v21, l22.1 - l21.1) := bind_ok u21 rfl
      have h24 : CE.located d l24 l25 = .ok (v24, l25.1 - l24.1) := bind_ok u24 rfl
      first
        | exact bind_ok hnepr (onlyIf_some c (bind_ok f7 (span_ok e11 e16 u11 g11)))
        | exact bind_ok hnepr (onlyIf_some c (bind_ok f7 (bind_ok f3 (one_ok e16 u16 g16))))
        | exact bind_ok hnepr (onlyIf_some c (bind_ok f7 (two_ok e17 e18 u17 g17)))
        | exact bind_ok hnepr (onlyIf_some c (bind_ok f7 (bind_ok f8 (one_ok e19 u19 g19))))
        | exact bind_ok hnepr (onlyIf_some c (bind_ok f9 (one_ok e20 u20 g20)))
        | exact bind_ok hnepr (onlyIf_some c (bind_ok f10 (two_ok e21 e22 h21 g21)))
        | exact bind_ok hnepr (onlyIf_some c (bind_ok f11 (two_ok e24 e25 h24 g24)))
        | exact bind_ok hnepr (onlyIf_some c (bind_ok f12 (one_ok e26 u26 g26)))
        | exact fun _ => bind_ok hnepr (bind_ok f8 g27)
        | (intro e; exact absurd (show false = true from e) Bool.false_ne_true)
        | (intro e; exact absurd (show true = false from e).symm Bool.false_ne_true)
        | exact fun i b e => ⟨nssh, f7, range'_get g23 e⟩

end Local

end ACE
