import Verif.Lemmas.FiniteX
import Verif.Lemmas.FiniteSextic
import Verif.Lemmas.FiniteModes
import Verif.Props.Run

/-! The whole run as values with infinities and NaN. -/

namespace Verif

open Ext

theorem asym_lists {n i2vib : Nat} {z f3 : T3 ℝ} {w : Vec ℝ} {r : Restst}
    (h : reststNew .asymmTop n i2vib z f3 w = some r) :
    r.modes = (List.range n).map Mode.i1 ∧ (Mode.partition r.modes).1 = List.range n ∧ (Mode.partition r.modes).2.1 = [] ∧
      (∀ i j, (⟨i, j⟩ : Fermi1) ∈ r.fermi1 ↔ i < n ∧ j < n ∧ |2 * w i - w j| ≤ 200 ∧ 10 ≤ |f3 i i j|) ∧
      ∀ i j k, (⟨i, j, k⟩ : Fermi2) ∈ r.fermi2 ↔ k < j ∧ j < i ∧ i < n ∧ 10 ≤ |f3 i j k| ∧
        (|(w i - w j - w k) * (-w i + w j - w k) * (-w i - w j + w k) * (w i + w j + w k)| ≤ 1000 ∨
          |max (w i - w j - w k) (max (-w i + w j - w k) (-w i - w j + w k))| ≤ 200) := by
  obtain ⟨t, -, hm, -, -, -, -, h1, h2⟩ := restst_parts h
  rw [hm] at h1 h2
  obtain ⟨L1, e1, -, m1⟩ := c23_iff n w f3
  obtain ⟨L2, e2, -, m2⟩ := c24_iff n w f3
  have := Option.some.inj (e1.symm.trans h1)
  subst this
  have := Option.some.inj (e2.symm.trans h2)
  rw [← this]
  rw [hm, partition_asym _ rfl]
  exact ⟨rfl, rfl, rfl, m1, m2⟩

theorem asym_separable {n i2vib : Nat} {z f3 : T3 ℝ} {w : Vec ℝ} {r : Restst}
    (h : reststNew .asymmTop n i2vib z f3 w = some r) (hg : NoZeroGap n w f3) :
    Separable n w (makeFermiChecks r.fermi1 r.fermi2).ifrmchk ∧
      ∀ k l, k < n → l < n → 2 * w k = w l → (makeFermiChecks r.fermi1 r.fermi2).ifrm1 k = some l := by
  obtain ⟨-, -, -, m1, m2⟩ := asym_lists h
  have lt : ∀ {k m : Nat}, m < n → w k < w m → m < k := by
    intro k m hm e
    rcases Nat.lt_trichotomy m k with c | c | c
    · exact c
    · rw [c] at e; exact absurd e (lt_irrefl _)
    · exact absurd (hg.desc k m c hm) (not_lt.2 e.le)
  have l1 : ∀ k l, k < n → l < n → 2 * w k = w l → (⟨k, l⟩ : Fermi1) ∈ r.fermi1 := by
    intro k l hk hl e
    refine (m1 k l).2 ⟨hk, hl, ?_, (hg.type1 k l hk hl e).1⟩
    rw [e, sub_self, abs_zero]; norm_num
  refine ⟨⟨hg.pos, hg.desc, ?_, ?_, ?_⟩, ?_⟩
  · intro k l hk hl e
    exact (chk_iff _ _ _ _ _).2 (Or.inl ⟨rfl, l1 k l hk hl e⟩)
  · intro k l m hk hl hm hkl e
    have pk := hg.pos k hk
    have pl := hg.pos l hl
    have mk : m < k := lt hm (by linarith)
    have ml : m < l := lt hm (by linarith)
    have mem : ∀ i j, m < j → j < i → i < n → w i + w j = w m → (⟨i, j, m⟩ : Fermi2) ∈ r.fermi2 := by
      intro i j hj hi hn e
      refine (m2 i j m).2 ⟨hj, hi, hn, hg.type2 i j m hj hi hn e, Or.inl ?_⟩
      have : -w i - w j + w m = 0 := by linarith
      rw [this, mul_zero, zero_mul, abs_zero]; norm_num
    refine (chk_iff _ _ _ _ _).2 (Or.inr ?_)
    rcases Nat.lt_or_gt_of_ne hkl with c | c
    · exact Or.inr (mem l k mk c hl (by linarith))
    · exact Or.inl (mem k l ml c hk e)
  · intro k l m hkl hc
    rcases (chk_iff _ _ _ _ _).1 hc with ⟨e, -⟩ | hc | hc
    · exact absurd e hkl
    · have := (m2 _ _ _).1 hc; omega
    · have := (m2 _ _ _).1 hc; omega
  · intro k l hk hl e
    have := ifrm1_check_of_unique (f2 := r.fermi2) (l1 k l hk hl e) ?_
    · simpa [HMap.check] using this
    · rintro ⟨a, b⟩ hg' rfl
      by_contra hne
      obtain ⟨-, hb, hc, hd⟩ := (m1 _ _).1 hg'
      exact absurd hd (not_le.2 ((hg.type1 _ l hk hl e).2 b hb hne hc))

theorem finish_fin {ι : Type} {s : SpectroIn ℝ} {o : Oracles ℝ ι} {o' : Oracles Ext ι} (ho : o'.Agree o)
    (hr : s.rotor = .asymmTop) (hw : ∀ i < s.natom, 0 < s.weights i) (hp : ∀ i < 3, s.primat i ≠ 0)
    (h01 : s.rotcon 1 < s.rotcon 0) (h12 : s.rotcon 2 < s.rotcon 1) (h2 : 0 < s.rotcon 2) {freq : List ℝ} {f3' : T3 Ext}
    {f3 : T3 ℝ} {f4' : T4 Ext} {f4 : T4 ℝ} (h3 : ∀ i j k, Is (f3' i j k) (f3 i j k))
    (h4 : ∀ i j k l, Is (f4' i j k l) (f4 i j k l)) (irreps : List ι) {lxm' lx' : Mat Ext} {lxm lx : Mat ℝ}
    (hlm : ∀ i j, Is (lxm' i j) (lxm i j)) (hlx : ∀ i j, Is (lx' i j) (lx i j)) (hg : NoZeroGap s.nvib (vecOf freq) f3)
    {out : Output ℝ ι} (h : finish s o freq f3 f4 irreps lxm lx = some out)
    (hb : s.rotcon 0 - (s.rotcon 1 + s.rotcon 2) / 2 + 10 * out.quartic.r6 ≠ 0) :
    finish s.toExt o' (freq.map fin) f3' f4' irreps lxm' lx' = some out.toExt := by
  have hw' := vecOf_fin freq
  have hz := makeZmat_fin hlm s.nvib s.natom
  have hwi := fun k c => wilsonA_fin (pos' := s.toExt.pos) (pos := s.pos) (w' := s.toExt.weights) (w := s.weights) hlm
    (fun _ _ => Is.fin _) (fun _ => Is.fin _) s.nvib s.natom k c (fun i hi => (hw i hi).le)
  have hrc : ∀ i, Is (s.toExt.rotcon i) (s.rotcon i) := fun _ => Is.fin _
  have hpm : ∀ i, Is (s.toExt.primat i) (s.primat i) := fun _ => Is.fin _
  have hne : ∀ i j, i < s.nvib → j < s.nvib → i ≠ j → vecOf freq i ≠ vecOf freq j := by
    intro i j hi hj hij
    rcases Nat.lt_or_gt_of_ne hij with c | c
    · exact (hg.desc i j c hj).ne'
    · exact (hg.desc j i c hi).ne
  unfold finish at h
  simp only [Option.bind_eq_bind, Option.bind_eq_some_iff] at h
  obtain ⟨qu, hqu, r, hres, x, hx, hf, hhf, zc, hzc, rots, hrots, v, hv, v', hv', hq⟩ := h
  obtain rfl := Option.some.inj hq
  rw [hr] at hqu hres
  dsimp only at hb
  obtain ⟨hmodes, hp1, hp2, -, -⟩ := asym_lists hres
  obtain ⟨hsep, hif⟩ := asym_separable hres hg
  unfold finishX at hx
  rw [hr] at hx
  simp only [Rotor.isSymTop, Bool.false_eq_true, if_false, Option.some.injEq] at hx
  subst hx
  unfold finishFunds at hhf
  rw [hr] at hhf
  simp only [Rotor.isSymTop, Bool.false_eq_true, if_false, Option.map_eq_some_iff] at hhf
  obtain ⟨ha, hha, rfl⟩ := hhf
  unfold finishRots at hrots
  rw [hr] at hrots
  rw [if_neg (by decide)] at hrots
  simp only [Option.bind_eq_bind, Option.bind_eq_some_iff] at hrots
  obtain ⟨R, hR, hrots⟩ := hrots
  have q1 := quartic_fin hw' hpm hwi hrc hg.pos hp h01 h12
  rw [hqu] at q1
  have r1 : reststNew .asymmTop s.nvib s.i2vib (makeZmat s.nvib s.natom lxm') f3' (vecOf (freq.map fin)) = some r := by
    rw [restst_fin hw' hz h3]; exact hres
  have xm := xcalcMat_fin hw' h3 h4 hz hrc hsep
  have e0 := makeE0_fin hw' h3 h4 hsep hif (modes := r.modes) (by rw [hp1]; intro k hk; exact List.mem_range.1 hk)
  have fu := makeFunds_fin hw' xm s.nvib
  have cf := correctedFunds_fin (x' := xcalcMat s.nvib f4' (vecOf (freq.map fin)) f3' (makeZmat s.nvib s.natom lxm')
      s.toExt.rotcon (makeFermiChecks r.fermi1 r.fermi2).ifrmchk)
    ho.vals2 ho.vecs2 hw' xm h3 e0 r hp2 (List.replicate r.states.length (Arith.lit 0.0))
  have hzc' : correctedFunds o.eigen2 (vecOf freq) (xcalcMat s.nvib f4 (vecOf freq) f3 (makeZmat s.nvib s.natom lxm)
      s.rotcon (makeFermiChecks r.fermi1 r.fermi2).ifrmchk) none r f3
      (makeE0 r.modes f4 f3 (vecOf freq) (makeFermiChecks r.fermi1 r.fermi2).ifrm1
        (makeFermiChecks r.fermi1 r.fermi2).ifrmchk) (List.replicate r.states.length (Arith.lit 0.0)) = some zc := hzc
  rw [hzc', List.map_replicate] at cf
  obtain ⟨R', hR', hRR⟩ := alphaa_fin (rc' := s.toExt.rotcon) (al' := alpha s.nvib s.toExt.rotcon s.toExt.primat (vecOf (freq.map fin))
      (wilsonA s.nvib s.natom s.toExt.pos lxm' s.toExt.weights) (makeZmat s.nvib s.natom lxm') f3' r.coriolis) hrc r.modes
    (fun i x hi => alphaEntry_fin hw' hpm hwi hrc hz h3 hg.pos hne hp _ i x (by
      rw [hmodes] at hi
      simp only [List.mem_map, List.mem_range] at hi
      obtain ⟨a, ha, e⟩ := hi
      injection e with e
      omega)) r.states hR
  have ro := rota_fin s.header (s.nvib + 1) hrc hRR r.states qu
  rw [hrots] at ro
  have sx := sextic_fin hw' hpm hwi hrc hz h3 hg.pos hp
    (by intro i hi; interval_cases i <;> [exact (by linarith : (0:ℝ) < _).ne'; exact (by linarith : (0:ℝ) < _).ne'; exact h2.ne'])
    h01 h12 freq.length hqu hb
  have t1 := toVec_fin hlm s.n3n s.n3n
  have t2 := toVec_fin hlx s.n3n s.n3n
  rw [hv] at t1
  rw [hv'] at t2
  have hr' : s.toExt.rotor = .asymmTop := hr
  have fx : finishX s.toExt (vecOf (freq.map fin)) f3' f4' (makeZmat s.nvib s.natom lxm')
      (wilsonA s.nvib s.natom s.toExt.pos lxm' s.toExt.weights) r = some
        (xcalcMat s.nvib f4' (vecOf (freq.map fin)) f3' (makeZmat s.nvib s.natom lxm') s.toExt.rotcon
          (makeFermiChecks r.fermi1 r.fermi2).ifrmchk, none,
        makeE0 r.modes f4' f3' (vecOf (freq.map fin)) (makeFermiChecks r.fermi1 r.fermi2).ifrm1
          (makeFermiChecks r.fermi1 r.fermi2).ifrmchk) := by
    unfold finishX
    rw [hr']
    rfl
  have ff : finishFunds s.toExt (freq.map fin) (xcalcMat s.nvib f4' (vecOf (freq.map fin)) f3'
        (makeZmat s.nvib s.natom lxm') s.toExt.rotcon (makeFermiChecks r.fermi1 r.fermi2).ifrmchk) none r =
      some (ha.map fin, (makeFunds (vecOf freq) s.nvib (xcalc s.nvib f4 (vecOf freq) f3 (makeZmat s.nvib s.natom lxm)
        s.rotcon r.modes r.fermi1 r.fermi2).1).map fin) := by
    unfold finishFunds firstFreqs at *
    rw [hr']
    simp only [Rotor.isSymTop, Bool.false_eq_true, if_false, List.length_map]
    have : s.toExt.nvib = s.nvib := rfl
    rw [this, fu]
    split_ifs at hha ⊢
    · rw [← Option.some.inj hha, Option.map_some, List.map_take]; rfl
  have fr : finishRots s.toExt (vecOf (freq.map fin)) f3' (makeZmat s.nvib s.natom lxm')
      (wilsonA s.nvib s.natom s.toExt.pos lxm' s.toExt.weights) r qu.toExt = some (rots.map Rot.toExt) := by
    unfold finishRots
    rw [hr', if_neg (by decide)]
    have : s.toExt.nvib = s.nvib := rfl
    rw [this, hR']
    exact ro
  unfold finish
  have n1 : s.toExt.nvib = s.nvib := rfl
  have n2 : s.toExt.natom = s.natom := rfl
  have n3 : s.toExt.n3n = s.n3n := rfl
  have n4 : s.toExt.i2vib = s.i2vib := rfl
  rw [hr', n1, n2, n3, n4, List.length_map]
  dsimp only
  rw [q1, Option.map_some, Option.bind_eq_bind, Option.bind_some, r1, Option.bind_eq_bind, Option.bind_some, fx,
    Option.bind_eq_bind, Option.bind_some, ff, Option.bind_eq_bind, Option.bind_some]
  have e00 : (Arith.lit 0.0 : Ext) = fin (Arith.lit 0.0) := rfl
  rw [e00, cf, Option.map_some, Option.bind_eq_bind, Option.bind_some, fr, Option.bind_eq_bind, Option.bind_some, t1,
    Option.map_some, Option.bind_eq_bind, Option.bind_some, t2, Option.map_some, Option.bind_some, sx]
  unfold Output.toExt
  rw [hr]
  rfl

theorem run_fin {ι : Type} {s : SpectroIn ℝ} {o : Oracles ℝ ι} {o' : Oracles Ext ι} (ho : o'.Agree o)
    (hr : s.rotor = .asymmTop) (hn : s.n3n = 3 * s.natom) (hw : ∀ i < s.natom, 0 < s.weights i)
    (hp : ∀ i < 3, s.primat i ≠ 0) (h01 : s.rotcon 1 < s.rotcon 0) (h12 : s.rotcon 2 < s.rotcon 1) (h2 : 0 < s.rotcon 2)
    (fc2 : Mat ℝ) (f3x : T3 ℝ) (f4x : T4 ℝ) {m : ModesOut ℝ ι} (hm : runModes s o fc2 = some m)
    (hg : NoZeroGap s.nvib (vecOf m.freq)
      (f3Of (force3 s.n3n (rot3rd s.n3n s.natom s.axes f3x) m.lx s.nvib (vecOf m.freq))))
    {out : Output ℝ ι} (h : run s o (.quartic fc2 f3x f4x) = some out)
    (hb : s.rotcon 0 - (s.rotcon 1 + s.rotcon 2) / 2 + 10 * out.quartic.r6 ≠ 0) :
    run s.toExt o' (Derivative.toExt (.quartic fc2 f3x f4x)) = some out.toExt := by
  obtain ⟨m0, F4, hm0, hF4, hfin⟩ := run_quartic h
  obtain rfl := Option.some.inj (hm0.symm.trans hm)
  obtain ⟨m', hm', e1, e2, e3, e4⟩ := runModes_fin ho hr hn hw fc2 hm
  have ax : ∀ i j, Is (s.toExt.axes i j) (s.axes i j) := fun _ _ => Is.fin _
  have hv := vecOf_fin m0.freq
  have a3 := force3_fin (rot3rd_fin ax (f' := fun i j k => fin (f3x i j k)) (f := f3x) (fun _ _ _ => Is.fin _) s.n3n s.natom)
    e3 hv s.n3n s.nvib hg.pos
  have a4 := force4_fin (rot4th_fin ax (f' := fun i j k l => fin (f4x i j k l)) (f := f4x) (fun _ _ _ _ => Is.fin _) s.n3n
    s.natom) e3 hv s.n3n s.nvib hg.pos
  rw [hF4, Option.map_some] at a4
  have fi := finish_fin ho hr hw hp h01 h12 h2 (f3Of_fin _) (f4Of_fin _) m0.irreps e2 e3 hg hfin hb
  unfold run
  have fe : (Derivative.toExt (.quartic fc2 f3x f4x)).fc2 = fun i j => fin (fc2 i j) := rfl
  rw [fe, hm', Option.bind_eq_bind, Option.bind_some]
  unfold Derivative.toExt
  dsimp only
  have n1 : s.toExt.nvib = s.nvib := rfl
  have n2 : s.toExt.natom = s.natom := rfl
  have n3 : s.toExt.n3n = s.n3n := rfl
  rw [e1, n1, n2, n3, a3, a4, Option.bind_eq_bind, Option.bind_some, e4]
  exact fi

end Verif
