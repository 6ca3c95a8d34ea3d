import Verif.Pfile.Spec
import Verif.Psf.Props

/-!
# C145: PsfEx files
-/

namespace Verif.Pfile

open Verif

variable {R : Type} [Field R] [DecidableEq R]

omit [DecidableEq R] in
theorem num_real (x : R) : (HVal.real x).num = some x := rfl

theorem nterms_nat (d : Nat) : nterms (d : Int) = (((d + 1) * (d + 2) / 2 : Nat) : Int) := by
  unfold nterms; push_cast; rfl

/-- The index of a term, as a sum. -/
theorem termIndex_sum (d j k : Nat) (h : j + k ≤ d) : (Psf.termIndex d j k).toNat = j + ∑ i ∈ Finset.range k, (d + 1 - i) := by
  have key : ∀ k : Nat, k ≤ d + 1 → ((∑ i ∈ Finset.range k, (d + 1 - i) : Nat) : Int) * 2 = 2 * ((d + 1) * k) - k * (k - 1) := by
    intro k
    induction k with
    | zero => simp
    | succ k ih =>
      intro hk
      rw [Finset.sum_range_succ]
      have := ih (by omega)
      push_cast [Nat.cast_sub (show k ≤ d + 1 by omega)] at this ⊢
      linarith
  have h2 := key k (by omega)
  obtain ⟨q, hq⟩ : ∃ q : Int, (k : Int) * (k - 1) = 2 * q := by
    rcases Int.even_or_odd (k : Int) with ⟨a, ha⟩ | ⟨a, ha⟩
    · exact ⟨a * (k - 1), by rw [ha]; ring⟩
    · exact ⟨k * a, by rw [ha]; ring⟩
  unfold Psf.termIndex
  rw [hq, Int.mul_ediv_cancel_left _ (by norm_num)]
  have h3 : ((d : Int) + 1) * k - q = (∑ i ∈ Finset.range k, (d + 1 - i) : Nat) := by
    rw [hq] at h2
    linarith
  have : (j : Int) + (d + 1) * k - q = ((j + ∑ i ∈ Finset.range k, (d + 1 - i) : Nat) : Int) := by
    push_cast
    push_cast at h3
    linarith
  rw [this, Int.toNat_natCast]

/-- `at` of a model with all its numbers. -/
theorem at_eq (f32 : R → R) (m : Model R) (d : Nat) (hd : m.degree = d) (planes : List (Arr R)) (hn : planes.length = (d + 1) * (d + 2) / 2)
    (hb : m.bases = planes.map (fun p => { p with px := fun r c => f32 (p.px r c) })) (vx vy vs vt : HVal R) (x0 y0 xs ys : R)
    (h1 : m.x0 = some vx) (h2 : m.y0 = some vy) (h3 : m.xscale = some vs) (h4 : m.yscale = some vt) (n1 : vx.num = some x0) (n2 : vy.num = some y0)
    (n3 : vs.num = some xs) (n4 : vt.num = some ys) (x y : R) (r c : Nat) :
    «at» m x y r c = .ok (polyPsf f32 d x0 y0 xs ys planes x y r c) := by
  unfold «at»
  simp only [h1, h2, h3, h4, Option.bind_some, n1, n2, n3, n4, hd, Int.toNat_natCast]
  rw [Psf.C48_at _ (by simp [hb, hn])]
  congr 1
  unfold polyPsf
  refine Finset.sum_congr rfl fun p hp => ?_
  rw [Finset.mem_filter] at hp
  congr 1
  dsimp only
  rw [termIndex_sum d p.1 p.2 hp.2, hb, List.getElem?_map, Option.map_map]
  rfl

/-- **C145, files.** A file whose header describes a polynomial of degree `d` in the image coordinates, and has the right number of images, is read; the
PSF at any position is the polynomial with the numbers of the header and the images of the file (as `float32`). -/
theorem C145_read (f32 : R → R) (f : File R) (d : Nat) (vx vy vs vt : HVal R) (hf : f.hdr.Describes d vx vy vs vt) (planes : List (Arr R))
    (rest : List (Mask R)) (hr : f.rows = .cube planes :: rest) (hn : planes.length = (d + 1) * (d + 2) / 2) (x0 y0 xs ys : R)
    (n1 : vx.num = some x0) (n2 : vy.num = some y0) (n3 : vs.num = some xs) (n4 : vt.num = some ys) :
    ∃ m a, readFile f32 f = .ok m ∧ planes.head? = some a ∧ m.radius = ((a.h : R) + 1) / 2 ∧ m.sampling = f.hdr "PSF_SAMP" ∧
      m.fwhm = some (f.hdr "PSF_FWHM") ∧ ∀ x y r c, «at» m x y r c = .ok (polyPsf f32 d x0 y0 xs ys planes x y r c) := by
  obtain ⟨g1, ⟨s1, g2, g2'⟩, ⟨s2, g3, g3'⟩, g4, g5, g6, g7, g8, g9, g10, g11⟩ := hf
  cases planes with
  | nil =>
    exfalso
    have h2 : 1 ≤ (d + 1) * (d + 2) / 2 := by
      rw [Nat.le_div_iff_mul_le (by norm_num)]
      nlinarith
    simp at hn
    omega
  | cons a pl =>
    have hread : readFile f32 f = .ok ⟨f.hdr "PSF_SAMP", (a :: pl).map (fun p => { p with px := fun r c => f32 (p.px r c) }), some vs, some vt, d,
        ((a.h : R) + 1) / 2, some vx, some vy, some (f.hdr "PSF_FWHM")⟩ := by
      have hne : nterms (d : Int) = (((d + 1) * (d + 2) / 2 : Nat) : Int) := nterms_nat d
      have hcast : (((d : Int) + 1) * (d + 2) / 2) = (((d + 1) * (d + 2) / 2 : Nat) : Int) := by push_cast; rfl
      have hlen : (((a :: pl).length : Nat) : Int) = nterms (d : Int) := by rw [hne, hn]
      have m1 : strip s1 ∈ ["X_IMAGE", "XWIN_IMAGE"] := by simpa using g2'
      have m2 : strip s2 ∈ ["Y_IMAGE", "YWIN_IMAGE"] := by simpa using g3'
      unfold readFile
      rw [hr]
      dsimp only
      unfold readTerms
      rw [g1]
      simp only [HVal.isInt, Int.reduceBEq, Bool.false_eq_true, if_false, if_true, wantName, g2, g3, m1, m2, wantInt, g4, g5, getDegree, g6,
        Except.map, g7, g8, g9, g10, g11, takeBases]
      have hb : (((d : Int) + 1) * (d + 2) / 2 == nterms (d : Int)) = true := by rw [hcast, hne]; simp
      rw [if_pos hlen]
      simp only [hb, if_true]
    refine ⟨_, a, hread, rfl, rfl, rfl, rfl, fun x y r c => ?_⟩
    exact at_eq f32 _ d rfl (a :: pl) hn rfl vx vy vs vt x0 y0 xs ys rfl rfl rfl rfl n1 n2 n3 n4 x y r c

/-- **C145, constant PSFs.** A file without polynomial (`POLNGRP = 0`) and with one image gives that image everywhere. -/
theorem C145_constant (f32 : R → R) (f : File R) (hg : f.hdr "POLNGRP" = some (.int 0)) (ha : f.hdr "PSFAXIS3" = some (.int 1)) (a : Arr R)
    (rest : List (Mask R)) (hr : f.rows = .cube [a] :: rest) :
    ∃ m, readFile f32 f = .ok m ∧ ∀ x y r c, «at» m x y r c = .ok (f32 (a.px r c)) := by
  have hread : readFile f32 f = .ok ⟨f.hdr "PSF_SAMP", [{ a with px := fun r c => f32 (a.px r c) }], some (.real 1), some (.real 1), 0,
      ((a.h : R) + 1) / 2, some (.real 0), some (.real 0), some (f.hdr "PSF_FWHM")⟩ := by
    unfold readFile
    rw [hr]
    dsimp only
    unfold readTerms
    rw [hg]
    simp [HVal.isInt, wantInt, ha, nterms, takeBases]
  refine ⟨_, hread, fun x y r c => ?_⟩
  rw [at_eq f32 _ 0 rfl [a] rfl rfl (.real 0) (.real 0) (.real 1) (.real 1) 0 0 1 1 rfl rfl rfl rfl rfl rfl rfl rfl x y r c]
  congr 1
  simp [polyPsf, Finset.sum_filter]

/-- **C145, merged tables.** A row of a merged table gives the model its columns describe. -/
theorem C145_row (f32 : R → R) (t : Row R) (d : Nat) (hd : t.poldeg1 = d) (h1 : strip t.polname1 = "X_IMAGE") (h2 : strip t.polname2 = "Y_IMAGE")
    (h3 : t.polgrp1 = 1) (h4 : t.polgrp2 = 1) (h5 : t.polngrp = 1) (h6 : t.psfaxis3 = (d + 1) * (d + 2) / 2) (planes : List (Arr R))
    (hm : t.psf_mask = .cube planes) (hn : planes.length = (d + 1) * (d + 2) / 2) (x0 y0 xs ys : R)
    (n1 : t.polzero1.num = some x0) (n2 : t.polzero2.num = some y0) (n3 : t.polscal1.num = some xs) (n4 : t.polscal2.num = some ys) :
    ∃ m a, readRow f32 t = .ok m ∧ planes.head? = some a ∧ m.radius = ((a.h : R) + 1) / 2 ∧ m.sampling = some t.psf_samp ∧
      m.fwhm = some (some t.psf_fwhm) ∧ ∀ x y r c, «at» m x y r c = .ok (polyPsf f32 d x0 y0 xs ys planes x y r c) := by
  cases planes with
  | nil =>
    exfalso
    have h2 : 1 ≤ (d + 1) * (d + 2) / 2 := by
      rw [Nat.le_div_iff_mul_le (by norm_num)]
      nlinarith
    simp at hn
    omega
  | cons a pl =>
    have hne : nterms (d : Int) = (((d + 1) * (d + 2) / 2 : Nat) : Int) := nterms_nat d
    have hlen : (((a :: pl).length : Nat) : Int) = nterms (d : Int) := by rw [hne, hn]
    have hread : readRow f32 t = .ok ⟨some t.psf_samp, (a :: pl).map (fun p => { p with px := fun r c => f32 (p.px r c) }), some t.polscal1,
        some t.polscal2, d, ((a.h : R) + 1) / 2, some t.polzero1, some t.polzero2, some (some t.psf_fwhm)⟩ := by
      unfold readRow
      rw [if_neg (by rintro ⟨-, h⟩; exact h ⟨h1, h2, h3, h4, h5⟩), if_neg (by rw [h6, hd]; simp [nterms]), hm, hd]
      simp only [takeBases]
      rw [if_pos hlen]
    refine ⟨_, a, hread, rfl, rfl, rfl, rfl, fun x y r c => ?_⟩
    exact at_eq f32 _ d rfl (a :: pl) hn rfl _ _ _ _ x0 y0 xs ys rfl rfl rfl rfl n1 n2 n3 n4 x y r c

/-- What reading gives. -/
theorem read_whole (f32 : R → R) (f : File R) (m : Model R) (h : readFile f32 f = .ok m) :
    ∃ (planes : List (Arr R)) (a : Arr R) (pl : List (Arr R)), planes = a :: pl ∧ m.bases = planes.map (fun p => { p with px := fun r c => f32 (p.px r c) }) ∧
      (planes.length : Int) = nterms m.degree ∧ m.radius = ((a.h : R) + 1) / 2 ∧ m.fwhm = some (f.hdr "PSF_FWHM") := by
  unfold readFile at h
  cases hr : f.rows with
  | nil => rw [hr] at h; cases h
  | cons mask rest =>
    rw [hr] at h
    dsimp only at h
    cases ht : readTerms f.hdr with
    | error e => rw [ht] at h; cases h
    | ok v =>
      rw [ht] at h
      dsimp only at h
      cases hw : wantInt f.hdr "PSFAXIS3" (nterms v.1) with
      | error e => rw [hw] at h; cases h
      | ok u =>
        rw [hw] at h
        dsimp only at h
        cases mask with
        | flat a => simp [takeBases] at h
        | cube planes =>
          simp only [takeBases] at h
          by_cases hl : (planes.length : Int) = nterms v.1
          · rw [if_pos hl] at h
            cases planes with
            | nil => cases h
            | cons a pl =>
              dsimp only at h
              injection h with h
              subst h
              exact ⟨a :: pl, a, pl, rfl, rfl, hl, rfl, rfl⟩
          · rw [if_neg hl] at h; cases h

theorem row_whole (f32 : R → R) (t : Row R) (m : Model R) (h : readRow f32 t = .ok m) :
    ∃ (planes : List (Arr R)) (a : Arr R) (pl : List (Arr R)), planes = a :: pl ∧ m.bases = planes.map (fun p => { p with px := fun r c => f32 (p.px r c) }) ∧
      (planes.length : Int) = nterms m.degree ∧ m.radius = ((a.h : R) + 1) / 2 ∧ m.fwhm = some (some t.psf_fwhm) := by
  unfold readRow at h
  split at h
  · cases h
  · split at h
    · cases h
    · cases hm : t.psf_mask with
      | flat a => rw [hm] at h; simp [takeBases] at h
      | cube planes =>
        rw [hm] at h
        simp only [takeBases] at h
        by_cases hl : (planes.length : Int) = nterms t.poldeg1
        · rw [if_pos hl] at h
          cases planes with
          | nil => cases h
          | cons a pl =>
            dsimp only at h
            injection h with h
            subst h
            exact ⟨a :: pl, a, pl, rfl, rfl, hl, rfl, rfl⟩
        · rw [if_neg hl] at h; cases h

theorem write_read (f32 : R → R) (hf : ∀ x, f32 (f32 x) = f32 x) (m : Model R) (planes : List (Arr R)) (a : Arr R) (pl : List (Arr R))
    (h1 : planes = a :: pl) (h2 : m.bases = planes.map (fun p => { p with px := fun r c => f32 (p.px r c) }))
    (h3 : (planes.length : Int) = nterms m.degree) (h4 : m.radius = ((a.h : R) + 1) / 2) (w : Option (HVal R)) (h5 : m.fwhm = some w) :
    ∃ f, writeto m = .ok f ∧ readFile f32 f = .ok m := by
  refine ⟨⟨[.cube m.bases], setCard (cards m) "PSF_FWHM" w⟩, by unfold writeto; rw [h5], ?_⟩
  have hs1 : strip "X_IMAGE" = "X_IMAGE" := by decide +kernel
  have hs2 : strip "Y_IMAGE" = "Y_IMAGE" := by decide +kernel
  have hmm : m.bases.map (fun p => { p with px := fun r c => f32 (p.px r c) }) = m.bases := by
    rw [h2, List.map_map]
    refine List.map_congr_left fun p _ => ?_
    simp [hf]
  subst h1
  unfold readFile
  dsimp only
  have ht : readTerms (setCard (cards m) "PSF_FWHM" w) = .ok (m.degree, m.x0, m.y0, m.xscale, m.yscale) := by
    simp [readTerms, setCard, cards, HVal.isInt, wantName, wantInt, hs1, hs2, getDegree, Except.map]
  rw [ht]
  dsimp only
  have hw : wantInt (setCard (cards m) "PSF_FWHM" w) "PSFAXIS3" (nterms m.degree) = .ok () := by
    simp [wantInt, setCard, cards, HVal.isInt]
  rw [hw]
  dsimp only
  have htb : takeBases f32 (nterms m.degree) (.cube m.bases) = .ok (m.bases, m.radius) := by
    unfold takeBases
    have hl : (m.bases.length : Int) = nterms m.degree := by rw [h2, List.length_map, h3]
    dsimp only
    rw [if_pos hl]
    have : m.bases = { a with px := fun r c => f32 (a.px r c) } :: pl.map (fun p => { p with px := fun r c => f32 (p.px r c) }) := by rw [h2]; rfl
    rw [hmm]
    conv_lhs => rw [this]
    dsimp only
    rw [h4, this]
  rw [htb]
  have e1 : setCard (cards m) "PSF_FWHM" w "PSF_SAMP" = m.sampling := by simp [setCard, cards]
  have e2 : setCard (cards m) "PSF_FWHM" w "PSF_FWHM" = w := by simp [setCard]
  dsimp only
  rw [e1, e2, ← h5]

/-- **C145, writing.** A model read from a file or from a row of a merged table (constant or not, with whatever names) can be written, and the file is
read as the same model. -/
theorem C145_roundtrip (f32 : R → R) (hf : ∀ x, f32 (f32 x) = f32 x) (m : Model R)
    (h : (∃ f, readFile f32 f = .ok m) ∨ ∃ t, readRow f32 t = .ok m) : ∃ f, writeto m = .ok f ∧ readFile f32 f = .ok m := by
  rcases h with ⟨f, h⟩ | ⟨t, h⟩
  · obtain ⟨planes, a, pl, h1, h2, h3, h4, h5⟩ := read_whole f32 f m h
    exact write_read f32 hf m planes a pl h1 h2 h3 h4 _ h5
  · obtain ⟨planes, a, pl, h1, h2, h3, h4, h5⟩ := row_whole f32 t m h
    exact write_read f32 hf m planes a pl h1 h2 h3 h4 _ h5

/-- **C145, shifted models.** The model of `PixelizedPsfEx.getShifted(dx, dy)` can be written too; the file read back has at `(x, y)` the PSF that the
original has at `(x + dx, y + dy)`. -/
theorem C145_shifted (f32 : R → R) (hf : ∀ x, f32 (f32 x) = f32 x) (f : File R) (m : Model R) (h : readFile f32 f = .ok m) (vx vy : HVal R) (x0 y0 : R)
    (h1 : m.x0 = some vx) (h2 : m.y0 = some vy) (n1 : vx.num = some x0) (n2 : vy.num = some y0) (dx dy : R) :
    ∃ s f', getShifted m dx dy = .ok s ∧ writeto s = .ok f' ∧ readFile f32 f' = .ok s ∧ ∀ x y r c, «at» s x y r c = «at» m (x + dx) (y + dy) r c := by
  obtain ⟨planes, a, pl, p1, p2, p3, p4, p5⟩ := read_whole f32 f m h
  have hs : getShifted m dx dy = .ok { m with x0 := some (.real (x0 - dx)), y0 := some (.real (y0 - dy)) } := by
    simp [getShifted, shifted, minus, h1, h2, n1, n2, Except.map]
  obtain ⟨f', w1, w2⟩ := write_read f32 hf { m with x0 := some (.real (x0 - dx)), y0 := some (.real (y0 - dy)) } planes a pl p1 p2 p3 p4 _ p5
  refine ⟨_, f', hs, w1, w2, fun x y r c => ?_⟩
  unfold «at»
  simp only [h1, h2, Option.bind_some, n1, n2, num_real]
  cases m.xscale.bind HVal.num with
  | none => rfl
  | some xs =>
    cases m.yscale.bind HVal.num with
    | none => rfl
    | some ys => exact Psf.C70_shifted ⟨m.bases, m.degree.toNat, x0, y0, xs, ys, 0, m.radius, none⟩ dx dy x y r c

/-- **C145, copies**: `copy()` (and `shifted`) of a model that was read give models that cannot be written: AttributeError. -/
theorem C145_copy_false (f32 : R → R) (f : File R) (m : Model R) (_h : readFile f32 f = .ok m) (vx vy : HVal R) (x0 y0 : R) (h1 : m.x0 = some vx)
    (h2 : m.y0 = some vy) (n1 : vx.num = some x0) (n2 : vy.num = some y0) (dx dy : R) :
    ∃ c, shifted m dx dy = .ok c ∧ (∀ x y r c', «at» c x y r c' = «at» m (x + dx) (y + dy) r c') ∧ writeto c = .error .attribute := by
  have hs : shifted m dx dy = .ok { m with x0 := some (.real (x0 - dx)), y0 := some (.real (y0 - dy)), fwhm := none } := by
    simp [shifted, minus, h1, h2, n1, n2, Except.map]
  refine ⟨_, hs, fun x y r c => ?_, rfl⟩
  unfold «at»
  simp only [h1, h2, Option.bind_some, n1, n2, num_real]
  cases m.xscale.bind HVal.num with
  | none => rfl
  | some xs =>
    cases m.yscale.bind HVal.num with
    | none => rfl
    | some ys => exact Psf.C70_shifted ⟨m.bases, m.degree.toNat, x0, y0, xs, ys, 0, m.radius, none⟩ dx dy x y r c

/-! Examples: degree 1, three images of 1 x 2 pixels. -/

def exPlane (a b : ℚ) : Arr ℚ := ⟨1, 2, fun _ c => if c = 0 then a else b⟩

/-- The header of the example, with blanks behind a name, and window coordinates. -/
def exHdr : Header ℚ := fun k =>
  if k = "POLNGRP" then some (.int 1) else if k = "POLNAME1" then some (.str "XWIN_IMAGE  ") else if k = "POLNAME2" then some (.str "YWIN_IMAGE")
  else if k = "POLGRP1" then some (.int 1) else if k = "POLGRP2" then some (.int 1) else if k = "POLDEG1" then some (.int 1)
  else if k = "POLZERO1" then some (.real 100) else if k = "POLZERO2" then some (.int 50) else if k = "POLSCAL1" then some (.real 10)
  else if k = "POLSCAL2" then some (.real 20) else if k = "PSFAXIS3" then some (.int 3) else if k = "PSF_SAMP" then some (.real 1)
  else if k = "PSF_FWHM" then some (.real 4) else none

def exFile : File ℚ := ⟨[.cube [exPlane 1 2, exPlane 10 20, exPlane 100 200]], exHdr⟩

theorem exDescribes : exHdr.Describes 1 (.real 100) (.int 50) (.real 10) (.real 20) :=
  ⟨rfl, ⟨_, rfl, .inr (by decide +kernel)⟩, ⟨_, rfl, .inr (by decide +kernel)⟩, rfl, rfl, rfl, rfl, rfl, rfl, rfl, rfl⟩

/-- At (120, 90): 1 + 2 * 10 + 2 * 100. -/
example : ∃ m, readFile id exFile = .ok m ∧ «at» m 120 90 0 0 = .ok 221 ∧ «at» m 120 90 0 1 = .ok 442 := by
  obtain ⟨m, a, h1, -, -, -, -, h2⟩ := C145_read id exFile 1 _ _ _ _ exDescribes [exPlane 1 2, exPlane 10 20, exPlane 100 200] [] rfl rfl 100 50 10 20
    rfl (by simp [HVal.num]) rfl rfl
  refine ⟨m, h1, ?_, ?_⟩ <;> rw [h2] <;> exact congrArg Except.ok (by decide +kernel)

/-- The round trip of the example, and of the shifted model. -/
example : ∃ m f s f', readFile id exFile = .ok m ∧ writeto m = .ok f ∧ readFile id f = .ok m ∧ f.hdr "POLNAME1" = some (.str "X_IMAGE") ∧
    getShifted m 20 40 = .ok s ∧ writeto s = .ok f' ∧ f'.hdr "POLZERO1" = some (.real 80) ∧ «at» s 100 50 0 0 = «at» m 120 90 0 0 := by
  obtain ⟨m, hm⟩ : ∃ m, readFile id exFile = .ok m := ⟨_, rfl⟩
  obtain ⟨f, h1, h2⟩ := C145_roundtrip id (fun _ => rfl) m (.inl ⟨_, hm⟩)
  have e : m.x0 = some (.real 100) ∧ m.y0 = some (.int 50) := by
    have : readFile id exFile = .ok ⟨_, _, _, _, _, _, some (.real 100), some (.int 50), _⟩ := rfl
    rw [this] at hm
    injection hm with hm
    subst hm
    exact ⟨rfl, rfl⟩
  obtain ⟨s, f', g1, g2, -, g4⟩ := C145_shifted id (fun _ => rfl) exFile m hm _ _ 100 50 e.1 e.2 rfl (by simp [HVal.num]) 20 40
  refine ⟨m, f, s, f', hm, h1, h2, ?_, g1, g2, ?_, ?_⟩
  · unfold writeto at h1
    split at h1
    · cases h1
    · injection h1 with h1
      subst h1
      rfl
  · have hs : s.x0 = some (.real 80) := by
      simp [getShifted, shifted, minus, e.1, e.2, HVal.num, Except.map] at g1
      subst g1
      norm_num
    unfold writeto at g2
    split at g2
    · cases g2
    · injection g2 with g2
      subst g2
      simpa [setCard, cards] using hs
  · rw [g4]; norm_num

/-- The row of a merged table with the values of the file above. -/
def exRow : Row ℚ := ⟨.real 1, 1, "XWIN_IMAGE", "YWIN_IMAGE", 1, 1, 1, .real 100, .int 50, .real 10, .real 20, 3,
  .cube [exPlane 1 2, exPlane 10 20, exPlane 100 200], .real 4⟩

/-- **C145, window coordinates**: a model in the coordinates XWIN_IMAGE, YWIN_IMAGE is read from its file but not from a merged table: AssertionError. -/
theorem C145_window_false : (∃ m, readFile id exFile = .ok m) ∧ readRow id exRow = .error .assertion := by
  refine ⟨⟨_, rfl⟩, ?_⟩
  unfold readRow
  rw [if_pos ⟨by decide, by rintro ⟨h, -⟩; revert h; decide +kernel⟩]

/-- With the plain names it is read. -/
example : ∃ m, readRow id { exRow with polname1 := " X_IMAGE", polname2 := "Y_IMAGE " } = .ok m ∧ «at» m 120 90 0 0 = .ok 221 := by
  obtain ⟨m, a, h1, -, -, -, -, h2⟩ := C145_row id { exRow with polname1 := " X_IMAGE", polname2 := "Y_IMAGE " } 1 rfl (by decide +kernel)
    (by decide +kernel) rfl rfl rfl rfl [exPlane 1 2, exPlane 10 20, exPlane 100 200] rfl rfl 100 50 10 20 rfl (by simp [exRow, HVal.num]) rfl rfl
  exact ⟨m, h1, by rw [h2]; exact congrArg Except.ok (by decide +kernel)⟩

/-- A constant PSF. -/
example : ∃ m, readFile id (⟨[.cube [exPlane 1 2]], fun k => if k = "POLNGRP" then some (.int 0) else if k = "PSFAXIS3" then some (.int 1) else none⟩ : File ℚ) = .ok m ∧
    «at» m 7 8 0 1 = .ok 2 := by
  obtain ⟨m, h1, h2⟩ := C145_constant id (⟨[.cube [exPlane 1 2]], fun k => if k = "POLNGRP" then some (.int 0) else
    if k = "PSFAXIS3" then some (.int 1) else none⟩ : File ℚ) rfl rfl (exPlane 1 2) [] rfl
  exact ⟨m, h1, by rw [h2]; rfl⟩

end Verif.Pfile
