import Verif.Lemmas.ZooDil.Plane
import Verif.Lemmas.ZooDil.HaverkortA26
import Verif.Lemmas.ZooDil.HaverkortF
import Verif.Lemmas.ZooDil.Tokarev
import Verif.Lemmas.ZooDil.Neptunus
import Verif.Lemmas.ZooDil.Luna
import Verif.Lemmas.ZooDil.Iupiter
import Verif.Lemmas.ZooDil.Spring
import Verif.Lemmas.ZooDil.Best3dL1
import Verif.Lemmas.ZooDil.FacetGated4d
import Verif.Props.Zoo
import Verif.Props.Dilation

set_option autoImplicit false

/-
The declared dilations, from the certificates.
-/
namespace Peano.Zoo
variable {d : ℕ}

/-- All declared dilations are right. -/
def Right (i : CurveInfo d) : Prop := ∀ e ∈ i.dilation, e.2.RightFor e.1 i.curve

theorem between_of (hd : d ≠ 0) {m : Metric} {c : FCurve d} {lo up : ℚ} (hv : Valid c) (hC : Cert m c lo up) (hlo : 0 ≤ lo) (hup : 0 ≤ up) :
    (DilationValue.between lo up).RightFor m c := by
  obtain ⟨h0, h, _, hc⟩ := hv
  refine Cert.sound hd h ((FCurve.C12_check_iff c h).2.1 hc) (fun f hf => ?_) hlo hup hC
  have hr : m.ratio.Ok d := by cases m <;> simp only [Metric.ratio, Ratio.Ok] <;> omega
  obtain ⟨p, hp, s, t, a, b, e, hu⟩ := FCurve.C58_attained hd m.ratio hr c h h0 f hf
  refine ⟨_, ⟨p, hp, s, t, a, b, e, rfl⟩, ?_⟩
  rintro _ ⟨p', hp', s', t', a', b', e', rfl⟩
  exact hu p' hp' s' t' a' b' e'

theorem eq_of (hd : d ≠ 0) {m : Metric} {c : FCurve d} {v w : ℚ} (hv : Valid c) (h0 : 0 ≤ w) (hvw : v = w) (hC : Cert m c w w) : (DilationValue.eq v).RightFor m c := by
  subst hvw
  obtain ⟨D, hD, h1, h2⟩ := between_of hd hv hC h0 h0
  rwa [le_antisymm h2 h1] at hD

/-- The dilation from its square. -/
theorem wd_sqrt {c : FCurve d} (h0 : 0 < c.mult) {D : ℝ} (hD : 0 ≤ D) (h : IsWD .l2Squared c (D ^ 2)) : IsWD .l2 c D := by
  obtain ⟨f, hf, hu, hl⟩ := h
  refine ⟨f, hf, ?_, ?_⟩
  · rintro _ ⟨p, hp, s, t, a, b, e, rfl⟩
    exact le_of_sq_le_sq (hu ⟨p, hp, s, t, a, b, e, rfl⟩) hD
  · intro b hb
    have hq : ∀ p < c.mult, ∀ s t : ℝ, 0 ≤ s → s < t → t ≤ 1 → Metric.l2.quotient (fun j => f p s j - f p t j) (t - s) ≤ b :=
      fun p hp s t h1 h2 h3 => hb ⟨p, hp, s, t, h1, h2, h3, rfl⟩
    have hb0 : 0 ≤ b := (quotient_nonneg Metric.l2 _ (by norm_num)).trans (hq 0 h0 0 1 le_rfl one_pos le_rfl)
    refine le_of_sq_le_sq (hl ?_) hb0
    rintro _ ⟨p, hp, s, t, h1, h2, h3, rfl⟩
    exact pow_le_pow_left₀ (quotient_nonneg Metric.l2 _ (sub_pos.2 h2)) (hq p hp s t h1 h2 h3) 2

theorem valid_hilbert : Valid hilbert := C57_zoo2 _ (by simp [curves2])

theorem hilbert_right : Right hilbertInfo := by
  intro e he
  have hcurve : hilbertInfo.curve = hilbert := by simp only [hilbertInfo]
  rw [hcurve]
  simp only [hilbertInfo, exact3, List.mem_cons, List.not_mem_nil, or_false] at he
  rcases he with rfl | rfl | rfl
  · exact eq_of (by decide) valid_hilbert (by norm_num) (by norm_num) ZooDil.Hilbert.cert_l1
  · exact eq_of (by decide) valid_hilbert (by norm_num) (by norm_num) ZooDil.Hilbert.cert_l2
  · exact eq_of (by decide) valid_hilbert (by norm_num) (by norm_num) ZooDil.Hilbert.cert_linf

theorem valid_peano : Valid peano := C57_zoo2 _ (by simp [curves2])

theorem peano_right : Right peanoInfo := by
  intro e he
  have hcurve : peanoInfo.curve = peano := by simp only [peanoInfo]
  rw [hcurve]
  simp only [peanoInfo, exact3, List.mem_cons, List.not_mem_nil, or_false] at he
  rcases he with rfl | rfl | rfl
  · exact eq_of (by decide) valid_peano (by norm_num) (by norm_num) ZooDil.Peano.cert_l1
  · exact eq_of (by decide) valid_peano (by norm_num) (by norm_num) ZooDil.Peano.cert_l2
  · exact eq_of (by decide) valid_peano (by norm_num) (by norm_num) ZooDil.Peano.cert_linf

theorem valid_bauman : Valid bauman := C57_zoo2 _ (by simp [curves2])

theorem bauman_right : Right baumanInfo := by
  intro e he
  have hcurve : baumanInfo.curve = bauman := by simp only [baumanInfo]
  rw [hcurve]
  simp only [baumanInfo, exact3, List.mem_cons, List.not_mem_nil, or_false] at he
  rcases he with rfl | rfl
  · exact eq_of (by decide) valid_bauman (by norm_num) (by norm_num) ZooDil.Bauman.cert_l2
  · exact eq_of (by decide) valid_bauman (by norm_num) (by norm_num) ZooDil.Bauman.cert_linf

theorem valid_scepinBauman : Valid scepinBauman := C57_zoo2 _ (by simp [curves2])

theorem scepinBauman_right : Right scepinBaumanInfo := by
  intro e he
  have hcurve : scepinBaumanInfo.curve = scepinBauman := by simp only [scepinBaumanInfo]
  rw [hcurve]
  simp only [scepinBaumanInfo, exact3, List.mem_cons, List.not_mem_nil, or_false] at he
  rcases he with rfl | rfl | rfl
  · exact eq_of (by decide) valid_scepinBauman (by norm_num) (by norm_num) ZooDil.ScepinBauman.cert_l1
  · exact eq_of (by decide) valid_scepinBauman (by norm_num) (by norm_num) ZooDil.ScepinBauman.cert_l2
  · exact eq_of (by decide) valid_scepinBauman (by norm_num) (by norm_num) ZooDil.ScepinBauman.cert_linf

theorem valid_meurthe : Valid meurthe := C57_zoo2 _ (by simp [curves2])

theorem meurthe_right : Right meurtheInfo := by
  intro e he
  have hcurve : meurtheInfo.curve = meurthe := by simp only [meurtheInfo]
  rw [hcurve]
  simp only [meurtheInfo, exact3, List.mem_cons, List.not_mem_nil, or_false] at he
  rcases he with rfl | rfl | rfl
  · exact eq_of (by decide) valid_meurthe (by norm_num) (by norm_num) ZooDil.Meurthe.cert_l1
  · exact eq_of (by decide) valid_meurthe (by norm_num) (by norm_num) ZooDil.Meurthe.cert_l2
  · exact eq_of (by decide) valid_meurthe (by norm_num) (by norm_num) ZooDil.Meurthe.cert_linf

theorem valid_coil : Valid coil := C57_zoo2 _ (by simp [curves2])

theorem coil_right : Right coilInfo := by
  intro e he
  have hcurve : coilInfo.curve = coil := by simp only [coilInfo]
  rw [hcurve]
  simp only [coilInfo, exact3, List.mem_cons, List.not_mem_nil, or_false] at he
  rcases he with rfl | rfl | rfl
  · exact eq_of (by decide) valid_coil (by norm_num) (by norm_num) ZooDil.Coil.cert_l1
  · exact eq_of (by decide) valid_coil (by norm_num) (by norm_num) ZooDil.Coil.cert_l2
  · exact eq_of (by decide) valid_coil (by norm_num) (by norm_num) ZooDil.Coil.cert_linf

theorem valid_serpentine : Valid serpentine := C57_zoo2 _ (by simp [curves2])

theorem serpentine_right : Right serpentineInfo := by
  intro e he
  have hcurve : serpentineInfo.curve = serpentine := by simp only [serpentineInfo]
  rw [hcurve]
  simp only [serpentineInfo, exact3, List.mem_cons, List.not_mem_nil, or_false] at he
  rcases he with rfl | rfl | rfl
  · exact eq_of (by decide) valid_serpentine (by norm_num) (by norm_num) ZooDil.Serpentine.cert_l1
  · exact eq_of (by decide) valid_serpentine (by norm_num) (by norm_num) ZooDil.Serpentine.cert_l2
  · exact eq_of (by decide) valid_serpentine (by norm_num) (by norm_num) ZooDil.Serpentine.cert_linf

theorem valid_rCurve : Valid rCurve := C57_zoo2 _ (by simp [curves2])

theorem rCurve_right : Right rInfo := by
  intro e he
  have hcurve : rInfo.curve = rCurve := by simp only [rInfo]
  rw [hcurve]
  simp only [rInfo, exact3, List.mem_cons, List.not_mem_nil, or_false] at he
  rcases he with rfl | rfl | rfl
  · exact eq_of (by decide) valid_rCurve (by norm_num) (by norm_num) ZooDil.RCurve.cert_l1
  · exact eq_of (by decide) valid_rCurve (by norm_num) (by norm_num) ZooDil.RCurve.cert_l2
  · exact eq_of (by decide) valid_rCurve (by norm_num) (by norm_num) ZooDil.RCurve.cert_linf

theorem valid_ye : Valid ye := C57_zoo2 _ (by simp [curves2])

theorem ye_right : Right yeInfo := by
  intro e he
  have hcurve : yeInfo.curve = ye := by simp only [yeInfo]
  rw [hcurve]
  simp only [yeInfo, exact3, List.mem_cons, List.not_mem_nil, or_false] at he
  rcases he with rfl
  · exact eq_of (by decide) valid_ye (by norm_num) (by norm_num) ZooDil.Ye.cert_l2

theorem valid_betaOmega : Valid betaOmega := C57_zoo2 _ (by simp [curves2])

theorem betaOmega_right : Right betaOmegaInfo := by
  intro e he
  have hcurve : betaOmegaInfo.curve = betaOmega := by simp only [betaOmegaInfo]
  rw [hcurve]
  simp only [betaOmegaInfo, exact3, List.mem_cons, List.not_mem_nil, or_false] at he
  rcases he with rfl | rfl | rfl
  · exact eq_of (by decide) valid_betaOmega (by norm_num) (by norm_num) ZooDil.BetaOmega.cert_l1
  · exact eq_of (by decide) valid_betaOmega (by norm_num) (by norm_num) ZooDil.BetaOmega.cert_l2
  · exact eq_of (by decide) valid_betaOmega (by norm_num) (by norm_num) ZooDil.BetaOmega.cert_linf

theorem valid_arw : Valid arw := C57_zoo2 _ (by simp [curves2])

theorem arw_right : Right arwInfo := by
  intro e he
  have hcurve : arwInfo.curve = arw := by simp only [arwInfo]
  rw [hcurve]
  simp only [arwInfo, exact3, List.mem_cons, List.not_mem_nil, or_false] at he
  rcases he with rfl | rfl | rfl
  · exact eq_of (by decide) valid_arw (by norm_num) (by norm_num) ZooDil.Arw.cert_l1
  · exact eq_of (by decide) valid_arw (by norm_num) (by norm_num) ZooDil.Arw.cert_l2
  · exact eq_of (by decide) valid_arw (by norm_num) (by norm_num) ZooDil.Arw.cert_linf

theorem valid_haverkortA26 : Valid haverkortA26 := C57_zoo3 _ (by simp [curves3])

theorem haverkortA26_right : Right haverkortA26Info := by
  intro e he
  have hcurve : haverkortA26Info.curve = haverkortA26 := by simp only [haverkortA26Info]
  rw [hcurve]
  simp only [haverkortA26Info, exact3, List.mem_cons, List.not_mem_nil, or_false] at he
  rcases he with rfl | rfl | rfl
  · exact eq_of (by decide) valid_haverkortA26 (by norm_num) (by norm_num) ZooDil.HaverkortA26.cert_l1
  · exact between_of (by decide) valid_haverkortA26 ((ZooDil.HaverkortA26.cert_l2sq).weaken .l2 (22.7) (22.9) rfl (by norm_num [Metric.sq]) (by norm_num [Metric.sq])) (by norm_num) (by norm_num)
  · exact eq_of (by decide) valid_haverkortA26 (by norm_num) (by norm_num) ZooDil.HaverkortA26.cert_linf

theorem valid_haverkortF : Valid haverkortF := C57_zoo3 _ (by simp [curves3])

theorem haverkortF_right : Right haverkortFInfo := by
  intro e he
  have hcurve : haverkortFInfo.curve = haverkortF := by simp only [haverkortFInfo]
  rw [hcurve]
  simp only [haverkortFInfo, exact3, List.mem_cons, List.not_mem_nil, or_false] at he
  rcases he with rfl | rfl | rfl
  · exact between_of (by decide) valid_haverkortF ((ZooDil.HaverkortF.cert_l1).weaken .l1 (89.754) (89.758) rfl (by norm_num [Metric.sq]) (by norm_num [Metric.sq])) (by norm_num) (by norm_num)
  · exact between_of (by decide) valid_haverkortF ((ZooDil.HaverkortF.cert_l2sq).weaken .l2 (18.5) (18.7) rfl (by norm_num [Metric.sq]) (by norm_num [Metric.sq])) (by norm_num) (by norm_num)
  · exact eq_of (by decide) valid_haverkortF (by norm_num) (by norm_num) ZooDil.HaverkortF.cert_linf

theorem valid_tokarev : Valid tokarev := C57_zoo3 _ (by simp [curves3])

theorem tokarev_right : Right tokarevInfo := by
  intro e he
  have hcurve : tokarevInfo.curve = tokarev := by simp only [tokarevInfo]
  rw [hcurve]
  simp only [tokarevInfo, exact3, List.mem_cons, List.not_mem_nil, or_false] at he
  rcases he with rfl | rfl | rfl
  · exact between_of (by decide) valid_tokarev ((ZooDil.Tokarev.cert_l1).weaken .l1 (98.2) (98.4) rfl (by norm_num [Metric.sq]) (by norm_num [Metric.sq])) (by norm_num) (by norm_num)
  · exact eq_of (by decide) valid_tokarev (by norm_num) (by norm_num) ZooDil.Tokarev.cert_l2sq
  · exact eq_of (by decide) valid_tokarev (by norm_num) (by norm_num) ZooDil.Tokarev.cert_linf

theorem valid_neptunus : Valid neptunus := C57_zoo3 _ (by simp [curves3])

theorem neptunus_right : Right neptunusInfo := by
  intro e he
  have hcurve : neptunusInfo.curve = neptunus := by simp only [neptunusInfo]
  rw [hcurve]
  simp only [neptunusInfo, exact3, List.mem_cons, List.not_mem_nil, or_false] at he
  rcases he with rfl | rfl | rfl
  · exact between_of (by decide) valid_neptunus ((ZooDil.Neptunus.cert_l1).weaken .l1 (88.8) (89.0) rfl (by norm_num [Metric.sq]) (by norm_num [Metric.sq])) (by norm_num) (by norm_num)
  · exact between_of (by decide) valid_neptunus ((ZooDil.Neptunus.cert_l2sq).weaken .l2 (18.2) (18.4) rfl (by norm_num [Metric.sq]) (by norm_num [Metric.sq])) (by norm_num) (by norm_num)
  · exact eq_of (by decide) valid_neptunus (by norm_num) (by norm_num) ZooDil.Neptunus.cert_linf

theorem valid_luna : Valid luna := C57_zoo3 _ (by simp [curves3])

theorem luna_right : Right lunaInfo := by
  intro e he
  have hcurve : lunaInfo.curve = luna := by simp only [lunaInfo]
  rw [hcurve]
  simp only [lunaInfo, exact3, List.mem_cons, List.not_mem_nil, or_false] at he
  rcases he with rfl | rfl | rfl
  · exact between_of (by decide) valid_luna ((ZooDil.Luna.cert_l1).weaken .l1 (75.5) (75.7) rfl (by norm_num [Metric.sq]) (by norm_num [Metric.sq])) (by norm_num) (by norm_num)
  · exact between_of (by decide) valid_luna ((ZooDil.Luna.cert_l2sq).weaken .l2 (18.2) (18.4) rfl (by norm_num [Metric.sq]) (by norm_num [Metric.sq])) (by norm_num) (by norm_num)
  · exact eq_of (by decide) valid_luna (by norm_num) (by norm_num) ZooDil.Luna.cert_linf

theorem valid_iupiter : Valid iupiter := C57_zoo3 _ (by simp [curves3])

theorem iupiter_right : Right iupiterInfo := by
  intro e he
  have hcurve : iupiterInfo.curve = iupiter := by simp only [iupiterInfo]
  rw [hcurve]
  simp only [iupiterInfo, exact3, List.mem_cons, List.not_mem_nil, or_false] at he
  rcases he with rfl | rfl | rfl
  · exact between_of (by decide) valid_iupiter ((ZooDil.Iupiter.cert_l1).weaken .l1 (88.6) (88.8) rfl (by norm_num [Metric.sq]) (by norm_num [Metric.sq])) (by norm_num) (by norm_num)
  · exact between_of (by decide) valid_iupiter ((ZooDil.Iupiter.cert_l2).weaken .l2 (24.8) (30.0) rfl (by norm_num [Metric.sq]) (by norm_num [Metric.sq])) (by norm_num) (by norm_num)
  · exact between_of (by decide) valid_iupiter ((ZooDil.Iupiter.cert_linf).weaken .linf (16.9) (17.1) rfl (by norm_num [Metric.sq]) (by norm_num [Metric.sq])) (by norm_num) (by norm_num)

theorem valid_spring : Valid spring := C57_zoo3 _ (by simp [curves3])

theorem spring_right : Right springInfo := by
  intro e he
  have hcurve : springInfo.curve = spring := by simp only [springInfo]
  rw [hcurve]
  simp only [springInfo, exact3, List.mem_cons, List.not_mem_nil, or_false] at he
  rcases he with rfl | rfl
  · exact between_of (by decide) valid_spring ((ZooDil.Spring.cert_l1).weaken .l1 (82.9) (83.0) rfl (by norm_num [Metric.sq]) (by norm_num [Metric.sq])) (by norm_num) (by norm_num)
  · exact between_of (by decide) valid_spring ((ZooDil.Spring.cert_l2sq).weaken .l2 (16.9) (17.0) rfl (by norm_num [Metric.sq]) (by norm_num [Metric.sq])) (by norm_num) (by norm_num)

theorem valid_best3dL1 : Valid best3dL1 := C57_zoo3 _ (by simp [curves3])

theorem best3dL1_right : Right best3dL1Info := by
  intro e he
  have hcurve : best3dL1Info.curve = best3dL1 := by simp only [best3dL1Info]
  rw [hcurve]
  simp only [best3dL1Info, exact3, List.mem_cons, List.not_mem_nil, or_false] at he
  rcases he with rfl
  · exact between_of (by decide) valid_best3dL1 ((ZooDil.Best3dL1.cert_l1).weaken .l1 (89.742) (89.745) rfl (by norm_num [Metric.sq]) (by norm_num [Metric.sq])) (by norm_num) (by norm_num)

theorem valid_facetGated4d : Valid facetGated4d := C57_zoo4 _ (by simp [curves4])

theorem facetGated4d_right : Right facetGated4dInfo := by
  intro e he
  have hcurve : facetGated4dInfo.curve = facetGated4d := by simp only [facetGated4dInfo]
  rw [hcurve]
  simp only [facetGated4dInfo, exact3, List.mem_cons, List.not_mem_nil, or_false] at he
  rcases he with rfl
  · exact between_of (by decide) valid_facetGated4d ((ZooDil.FacetGated4d.cert_l2).weaken .l2 (61.9) (62.0) rfl (by norm_num [Metric.sq]) (by norm_num [Metric.sq])) (by norm_num) (by norm_num)


end Peano.Zoo
