import Verif.Model.WrapAnlzFile
import Verif.Lemmas.AnlzSection

/-! # Lemmas on whole analysis files in builds without overflow checks -/

namespace Rekordcrate.Anlz.AnlzFile
open Rd

theorem parseSections_agree (fin : Nat) (d : Bytes) (p : Nat) :
    Res.Agree (parseSections fin d p) (parseSectionsWrap fin d p) := by
  fun_induction parseSections fin d p with
  | case1 p hp s q hs ss r hss ih | case2 p hp s q hs e hss ih | case3 p hp s q hs hss ih =>
    intro hn
    have h1 : AnlzSection.readWrap d p = .ok (s, q) := by
      rw [AnlzSection.read_agree d p (by rw [hs]; exact fun h => (by cases h)), hs]
    first
      | exact absurd rfl hn
      | have h2 := ih (by rw [hss]; exact fun h => (by cases h))
        rw [hss] at h2
        rw [parseSectionsWrap.eq_def, dif_pos hp]
        split
        · rename_i s' q' hs'
          rw [h1] at hs'
          injection hs' with hs'
          injection hs' with e1 e2
          subst e1; subst e2
          rw [h2]
        · rename_i hs'; rw [h1] at hs'; cases hs'
        · rename_i hs'; rw [h1] at hs'; cases hs'
  | case4 p hp e hs =>
    intro _
    have h1 : AnlzSection.readWrap d p = .err e := by
      rw [AnlzSection.read_agree d p (by rw [hs]; exact fun h => (by cases h)), hs]
    rw [parseSectionsWrap.eq_def, dif_pos hp]
    split
    · rename_i hs'; rw [h1] at hs'; cases hs'
    · rename_i hs'; rw [h1] at hs'; injection hs' with hs'; rw [hs']
    · rename_i hs'; rw [h1] at hs'; cases hs'
  | case5 p hp hs => exact fun hn => absurd rfl hn
  | case6 p hp =>
    intro _
    rw [parseSectionsWrap.eq_def, dif_neg hp]

theorem parseSectionsWrap_np (fin : Nat) (d : Bytes) (p : Nat) : parseSectionsWrap fin d p ≠ .panic := by
  fun_induction parseSectionsWrap fin d p with
  | case1 p hp s q hs ss r hss ih => exact fun h => (by cases h)
  | case2 p hp s q hs e hss ih => exact fun h => (by cases h)
  | case3 p hp s q hs hss ih => exact absurd hss ih
  | case4 p hp e hs => exact fun h => (by cases h)
  | case5 p hp hs => exact absurd hs (AnlzSection.readWrap_np d p)
  | case6 p hp => exact fun h => (by cases h)

theorem read_agree : Rd.Agree read readWrap :=
  Rd.Agree.bind (Rd.Agree.refl _) fun _ => Rd.Agree.bind (Rd.Agree.refl _) fun _ =>
    Rd.Agree.bind_value Header.remainingSize_value (Rd.Agree.bind (Rd.Agree.refl _) fun _ =>
      Rd.Agree.bind_value Header.contentSize_value
        (Rd.Agree.bind (fun d p => parseSections_agree _ d p) fun _ => Rd.Agree.refl _))

theorem readWrap_np : NP readWrap :=
  NP.bind Header.np fun _ => NP.bind (NP.require _ _) fun _ => NP.bind (NP.bytes _) fun _ =>
    NP.bind (fun d p => parseSectionsWrap_np _ d p) fun _ => NP.pure _

theorem enc_agree (a : AnlzFile) : Res.Agree a.enc (.ok a.encWrap) :=
  Res.Agree.bind_value (Res.Agree.value (encAll_agree AnlzSection.enc_agree _)) (Res.Agree.refl _)

end Rekordcrate.Anlz.AnlzFile
