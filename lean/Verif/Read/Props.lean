import Verif.Read.Lemmas
import Mathlib.Algebra.Order.Ring.Rat
import Mathlib.Data.Rat.Floor
import Mathlib.Tactic.NormNum

/-!
# C139: images read from unWISE coadds

Spec: the image comes from the first directory that has all its files; its pixels, weights and positions are those of the files at the same place; it
is the part of the coadd that was asked for.
-/

namespace Verif.Read

open Verif Roi

variable {P R S : Type} [Field R] [LinearOrder R]

/-- The image, its inverse variances and both numbers of exposures are there, compressed or not. -/
def Complete (fs : Fs P R) (masked : Bool) (d : String) : Prop :=
  (∃ f, fs.image d masked = some f) ∧ (∃ g a, fs.plane d .iv masked g = some a) ∧ (∃ g a, fs.plane d .n masked g = some a) ∧
    ∃ g a, fs.plane d .n false g = some a

/-- `a` is the compressed file, or there is none and `a` is the uncompressed one. -/
def FileOf (fs : Fs P R) (d : String) (k : What) (m : Bool) (a : Arr R) : Prop :=
  fs.plane d k m true = some a ∨ fs.plane d k m true = none ∧ fs.plane d k m false = some a

/-- All files of a directory have the shape of its image. -/
def SameShape (fs : Fs P R) : Prop :=
  ∀ d m f k m' g a, fs.image d m = some f → fs.plane d k m' g = some a → a.h = f.img.h ∧ a.w = f.img.w

/-- The image `t` shows its region of the files of directory `d`, with image `f`. -/
structure Shows (sig : List R → S) (fs : Fs P R) (band : Nat) (masked : Bool) (d : String) (f : Frame P R) (t : Tim P R S) : Prop where
  inside : Inside f.img.h f.img.w t.roi
  size : (t.data.h : Int) = t.roi.y1 - t.roi.y0 ∧ (t.data.w : Int) = t.roi.x1 - t.roi.x0
  shape : ∀ a ∈ [t.invvar, t.nims, t.nuims], a.h = t.data.h ∧ a.w = t.data.w
  data : ∀ y x, y < t.data.h → x < t.data.w → t.data.px y x = f.img.px (t.roi.y0.toNat + y) (t.roi.x0.toNat + x)
  pos : ∀ p, f.pix p = ((t.pix p).1 + t.roi.x0, (t.pix p).2 + t.roi.y0)
  weight : ∃ iv n, FileOf fs d .iv masked iv ∧ FileOf fs d .n masked n ∧ ∀ y x, y < t.data.h → x < t.data.w →
    t.nims.px y x = n.px (t.roi.y0.toNat + y) (t.roi.x0.toNat + x) ∧
    (n.px (t.roi.y0.toNat + y) (t.roi.x0.toNat + x) ≤ 0 → t.invvar.px y x = 0) ∧
    (0 < n.px (t.roi.y0.toNat + y) (t.roi.x0.toNat + x) →
      (if band = 4 then 4 else 1) * t.invvar.px y x = iv.px (t.roi.y0.toNat + y) (t.roi.x0.toNat + x))
  all : ∃ n, FileOf fs d .n false n ∧ ∀ y x, y < t.data.h → x < t.data.w → t.nuims.px y x = n.px (t.roi.y0.toNat + y) (t.roi.x0.toNat + x)
  sig1 : t.sig1 = sig ((((List.range t.data.h).product (List.range t.data.w)).filter (fun e => 0 < t.nims.px e.1 e.2)).map (fun e => t.invvar.px e.1 e.2))
  time : t.time = none ↔ f.mjd.1 = none ∨ f.mjd.2 = none
  mid : ∀ a b, f.mjd = (some a, some b) → t.time = some ((a + b) / 2)

omit [Field R] [LinearOrder R] in
theorem pick_some (fs : Fs P R) (d : String) (k : What) (m : Bool) (a : Arr R) (h : fs.pick d k m = some a) : FileOf fs d k m a := by
  unfold Fs.pick at h
  cases h1 : fs.plane d k m true with
  | some b => rw [h1] at h; injection h with h; exact .inl (by rw [h1, h])
  | none => rw [h1] at h; exact .inr ⟨h1, h⟩

omit [Field R] [LinearOrder R] in
theorem pick_iff (fs : Fs P R) (d : String) (k : What) (m : Bool) : (∃ g a, fs.plane d k m g = some a) ↔ ∃ a, fs.pick d k m = some a := by
  unfold Fs.pick
  constructor
  · rintro ⟨g, a, h⟩
    cases h1 : fs.plane d k m true with
    | some b => exact ⟨b, rfl⟩
    | none =>
      cases g
      · exact ⟨a, h⟩
      · rw [h1] at h; cases h
  · rintro ⟨a, h⟩
    cases h1 : fs.plane d k m true with
    | some b => exact ⟨true, b, h1⟩
    | none => rw [h1] at h; exact ⟨false, a, h⟩

omit [Field R] [LinearOrder R] in
/-- What the loop over directories does. -/
theorem scan_ok (rnd : R → Int) (fs : Fs P R) (masked : Bool) (q : Request P) : ∀ dirs : List String,
    match scan rnd fs masked q dirs with
    | .error () => ∀ d ∈ dirs, ¬ Complete fs masked d
    | .ok none => ∃ pre d post f, dirs = pre ++ d :: post ∧ (∀ e ∈ pre, ¬ Complete fs masked e) ∧ fs.image d masked = some f ∧
        ask rnd f.pix f.img.h f.img.w q = none
    | .ok (some F) => ∃ pre post, dirs = pre ++ F.dir :: post ∧ (∀ e ∈ pre, ¬ Complete fs masked e) ∧ fs.image F.dir masked = some F.frame ∧
        (∃ b, ask rnd F.frame.pix F.frame.img.h F.frame.img.w q = some (F.roi, b)) ∧ FileOf fs F.dir .iv masked F.iv ∧
        FileOf fs F.dir .n masked F.nm ∧ FileOf fs F.dir .n false F.nu := by
  intro dirs
  induction dirs with
  | nil => unfold scan; simp
  | cons d ds ih =>
    -- passing on to the next directory
    have next : ¬ Complete fs masked d →
        match scan rnd fs masked q ds with
        | .error () => ∀ e ∈ d :: ds, ¬ Complete fs masked e
        | .ok none => ∃ pre e post f, d :: ds = pre ++ e :: post ∧ (∀ e ∈ pre, ¬ Complete fs masked e) ∧ fs.image e masked = some f ∧
            ask rnd f.pix f.img.h f.img.w q = none
        | .ok (some F) => ∃ pre post, d :: ds = pre ++ F.dir :: post ∧ (∀ e ∈ pre, ¬ Complete fs masked e) ∧ fs.image F.dir masked = some F.frame ∧
            (∃ b, ask rnd F.frame.pix F.frame.img.h F.frame.img.w q = some (F.roi, b)) ∧ FileOf fs F.dir .iv masked F.iv ∧
            FileOf fs F.dir .n masked F.nm ∧ FileOf fs F.dir .n false F.nu := by
      intro hn
      have add : ∀ pre : List String, (∀ e ∈ pre, ¬ Complete fs masked e) → ∀ e ∈ d :: pre, ¬ Complete fs masked e := by
        intro pre h e he
        rcases List.mem_cons.1 he with rfl | he
        · exact hn
        · exact h e he
      cases hs : scan rnd fs masked q ds with
      | error u =>
        rw [hs] at ih
        exact add ds ih
      | ok o =>
        rw [hs] at ih
        cases o with
        | none =>
          obtain ⟨pre, e, post, f, h1, h2, h3⟩ := ih
          exact ⟨d :: pre, e, post, f, by rw [h1]; rfl, add pre h2, h3⟩
        | some F =>
          obtain ⟨pre, post, h1, h2, h3⟩ := ih
          exact ⟨d :: pre, post, by rw [h1]; rfl, add pre h2, h3⟩
    unfold scan
    cases hf : fs.image d masked with
    | none =>
      dsimp only
      exact next (fun h => by obtain ⟨⟨f, h⟩, _⟩ := h; rw [hf] at h; cases h)
    | some f =>
      dsimp only
      cases ha : ask rnd f.pix f.img.h f.img.w q with
      | none => exact ⟨[], d, ds, f, rfl, by simp, hf, ha⟩
      | some rb =>
        obtain ⟨r, b⟩ := rb
        dsimp only
        have inc : fs.pick d .iv masked = none ∨ fs.pick d .n masked = none ∨ fs.pick d .n false = none → ¬ Complete fs masked d := by
          rintro h ⟨_, h1, h2, h3⟩
          rw [pick_iff] at h1 h2 h3
          obtain ⟨_, h1⟩ := h1
          obtain ⟨_, h2⟩ := h2
          obtain ⟨_, h3⟩ := h3
          rcases h with h | h | h
          · rw [h] at h1; cases h1
          · rw [h] at h2; cases h2
          · rw [h] at h3; cases h3
        cases h1 : fs.pick d .iv masked with
        | none => exact next (inc (.inl h1))
        | some iv =>
          cases h2 : fs.pick d .n masked with
          | none => exact next (inc (.inr (.inl h2)))
          | some nm =>
            cases h3 : fs.pick d .n false with
            | none => exact next (inc (.inr (.inr h3)))
            | some nu =>
              exact ⟨[], ds, rfl, by simp, hf, ⟨b, ha⟩, pick_some fs d _ _ _ h1, pick_some fs d _ _ _ h2, pick_some fs d _ _ _ h3⟩

theorem where_eq (a b : Arr R) : where' a b =
    (((List.range a.h).product (List.range a.w)).filter (fun e => 0 < b.px e.1 e.2)).map (fun e => a.px e.1 e.2) := by
  unfold where' List.product
  rw [List.filter_flatMap, List.map_flatMap]
  congr 1
  funext y
  generalize List.range a.w = l
  induction l with
  | nil => rfl
  | cons x l ih =>
    rw [List.filterMap_cons, List.map_cons, List.filter_cons]
    by_cases h : 0 < b.px y x
    · rw [if_pos h]; simp [h, ih]
    · rw [if_neg h]; simp [h, ih]

/-- **C139.** An image from unWISE coadds shows its region of the files of the first directory that has all of them: pixels, weights, exposures and
positions at the same place, no weight where there are no exposures, a quarter of it in band 4; None if the region asked for and the coadd have no
pixel in common; IOError only if no directory has all files.  Files have the shape of their image, and a region given by the caller lies in it. -/
theorem C139_image [IsStrictOrderedRing R] (rnd : R → Int) (sig : List R → S) (fs : Fs P R) (dirs : List String) (band : Nat) (masked : Bool) (q : Request P)
    (hsh : SameShape fs) (hq : ∀ d f r, fs.image d masked = some f → q.roi = some r → Inside f.img.h f.img.w r) :
    match unwiseImage rnd sig fs dirs band masked q with
    | .error () => ∀ d ∈ dirs, ¬ Complete fs masked d
    | .ok none => ∃ pre d post f, dirs = pre ++ d :: post ∧ (∀ e ∈ pre, ¬ Complete fs masked e) ∧ fs.image d masked = some f ∧
        ask rnd f.pix f.img.h f.img.w q = none
    | .ok (some t) => ∃ pre d post f b, dirs = pre ++ d :: post ∧ (∀ e ∈ pre, ¬ Complete fs masked e) ∧ fs.image d masked = some f ∧
        ask rnd f.pix f.img.h f.img.w q = some (t.roi, b) ∧ Shows sig fs band masked d f t := by
  have h := scan_ok rnd fs masked q dirs
  unfold unwiseImage
  cases hs : scan rnd fs masked q dirs with
  | error u => rw [hs] at h; exact h
  | ok o =>
    rw [hs] at h
    cases o with
    | none => exact h
    | some F =>
      obtain ⟨pre, post, h1, h2, h3, ⟨b, h4⟩, h5, h6, h7⟩ := h
      dsimp only
      have hin := ask_inside rnd F.frame.pix F.frame.img.h F.frame.img.w q (fun r hr => hq _ _ r h3 hr) F.roi b h4
      have shp : ∀ k m a, FileOf fs F.dir k m a → a.h = F.frame.img.h ∧ a.w = F.frame.img.w := by
        rintro k m a (h | ⟨_, h⟩)
        · exact hsh _ _ _ _ _ _ _ h3 h
        · exact hsh _ _ _ _ _ _ _ h3 h
      have cutp : ∀ a : Arr R, a.h = F.frame.img.h ∧ a.w = F.frame.img.w → ((cut a F.roi).h : Int) = F.roi.y1 - F.roi.y0 ∧
          ((cut a F.roi).w : Int) = F.roi.x1 - F.roi.x0 ∧ ∀ y x, (cut a F.roi).px y x = a.px (F.roi.y0.toNat + y) (F.roi.x0.toNat + x) := by
        intro a ha
        exact cut_ok a F.roi (by rw [ha.1, ha.2]; exact hin)
      obtain ⟨d1, d2, d3⟩ := cutp F.frame.img ⟨rfl, rfl⟩
      obtain ⟨i1, i2, i3⟩ := cutp F.iv (shp _ _ _ h5)
      obtain ⟨m1, m2, m3⟩ := cutp F.nm (shp _ _ _ h6)
      obtain ⟨u1, u2, u3⟩ := cutp F.nu (shp _ _ _ h7)
      have hw : ∀ a b : Arr R, (weights band a b).h = a.h ∧ (weights band a b).w = a.w := by
        intro a b
        unfold weights
        by_cases h : band = 4
        · simp only [if_pos h]; exact ⟨rfl, rfl⟩
        · simp only [if_neg h]; exact ⟨trivial, trivial⟩
      refine ⟨pre, F.dir, post, F.frame, b, h1, h2, h3, h4, ⟨hin, ⟨d1, d2⟩, ?_, fun y x _ _ => d3 y x, ?_, ?_, ?_, ?_, ?_, ?_⟩⟩
      · intro a ha
        simp only [List.mem_cons, List.not_mem_nil, or_false] at ha
        dsimp only
        rcases ha with rfl | rfl | rfl
        · rw [(hw _ _).1, (hw _ _).2]; omega
        · omega
        · cases masked
          · simp only [Bool.false_eq_true, if_false]; omega
          · simp only [if_true]; omega
      · intro p
        unfold subPix
        simp
      · refine ⟨F.iv, F.nm, h5, h6, fun y x _ _ => ⟨m3 y x, ?_, ?_⟩⟩
        · intro h0
          unfold weights
          dsimp only
          rw [m3, if_neg (not_lt.2 h0)]
        · intro h0
          unfold weights
          dsimp only
          rw [m3, if_pos h0]
          by_cases hb : band = 4
          · rw [if_pos hb, if_pos hb]
            unfold Arr.map
            dsimp only
            rw [i3]
            have : (4 : R) ≠ 0 := by norm_num
            rw [mul_comm, mul_assoc, one_div, inv_mul_cancel₀ this, mul_one]
          · rw [if_neg hb, if_neg hb, i3, one_mul]
      · cases hm : masked
        · rw [hm] at h6
          exact ⟨F.nm, h6, fun y x _ _ => m3 y x⟩
        · exact ⟨F.nu, h7, fun y x _ _ => u3 y x⟩
      · dsimp only
        rw [where_eq, (hw _ _).1, (hw _ _).2]
        rw [show (cut F.iv F.roi).h = (cut F.frame.img F.roi).h by omega, show (cut F.iv F.roi).w = (cut F.frame.img F.roi).w by omega]
      · obtain ⟨a, b⟩ : ∃ a b, F.frame.mjd = (a, b) := ⟨_, _, rfl⟩
        dsimp only
        cases h8 : F.frame.mjd with
        | mk a b => cases a <;> cases b <;> simp
      · intro a b hab
        dsimp only
        rw [hab]

/-! ### What was asked for -/

/-- `np.round`: to a nearest integer. -/
def Rounds (rnd : R → Int) : Prop := ∀ x, |x - rnd x| ≤ 1 / 2

/-- The pixels with numbers in `Has` are the pixels of the frame around `c`, up to half a pixel more than `n` in each direction. -/
def Around (c : R × R) (n : Nat) (Frame Has : Int → Int → Prop) : Prop :=
  (∀ x y, Frame x y → |(x : R) - c.1| < n + 1 / 2 → |(y : R) - c.2| < n + 1 / 2 → Has x y) ∧
    ∀ x y, Has x y → Frame x y ∧ |(x : R) - c.1| ≤ n + 1 / 2 ∧ |(y : R) - c.2| ≤ n + 1 / 2

theorem near_of [IsStrictOrderedRing R] (rnd : R → Int) (hr : Rounds rnd) (c : R) (n : Nat) (x : Int) :
    (|(x : R) - c| < n + 1 / 2 → rnd c - n ≤ x ∧ x < rnd c + n + 1) ∧ (rnd c - n ≤ x ∧ x < rnd c + n + 1 → |(x : R) - c| ≤ n + 1 / 2) := by
  have h := abs_le.1 (hr c)
  constructor
  · intro hx
    rw [abs_lt] at hx
    have h1 : ((rnd c - n - 1 : Int) : R) < (x : Int) := by push_cast; linarith [hx.1, h.1]
    have h2 : ((x : Int) : R) < ((rnd c + n + 1 : Int) : R) := by push_cast; linarith [hx.2, h.2]
    have h1 := Int.cast_lt.1 h1
    have h2 := Int.cast_lt.1 h2
    omega
  · rintro ⟨h1, h2⟩
    have h1 : ((rnd c - n : Int) : R) ≤ ((x : Int) : R) := Int.cast_le.2 h1
    have h2 : ((x : Int) : R) ≤ ((rnd c + n : Int) : R) := Int.cast_le.2 (by omega)
    push_cast at h1 h2
    rw [abs_le]
    constructor
    · linarith [h.2]
    · linarith [h.1]

/-- **C139.** Asked for a position and a half-size (`roiradecsize`), the image has exactly the pixels of the coadd around the position, and the
position is where its WCS says; None if there are no such pixels. -/
theorem C139_centre [IsStrictOrderedRing R] (rnd : R → Int) (hr : Rounds rnd) (sig : List R → S) (fs : Fs P R) (dirs : List String) (band : Nat)
    (masked : Bool) (p : P) (n : Nat) (hsh : SameShape fs) :
    match unwiseImage rnd sig fs dirs band masked ⟨none, some (p, n), none⟩ with
    | .error () => ∀ d ∈ dirs, ¬ Complete fs masked d
    | .ok none => ∃ d ∈ dirs, ∃ f, fs.image d masked = some f ∧ Around (f.pix p) n (InImage f.img.h f.img.w) (fun _ _ => False)
    | .ok (some t) => ∃ d ∈ dirs, ∃ f, fs.image d masked = some f ∧
        Around (t.pix p) n (fun x y => InImage f.img.h f.img.w (x + t.roi.x0) (y + t.roi.y0)) (InImage t.data.h t.data.w) := by
  have h := C139_image rnd sig fs dirs band masked ⟨none, some (p, n), none⟩ hsh (fun _ _ _ _ h => by cases h)
  cases hu : unwiseImage rnd sig fs dirs band masked ⟨none, some (p, n), none⟩ with
  | error u => rw [hu] at h; exact h
  | ok o =>
    rw [hu] at h
    cases o with
    | none =>
      obtain ⟨pre, d, post, f, h1, _, h3, h4⟩ := h
      refine ⟨d, by rw [h1]; simp, f, h3, fun x y hf hx hy => ?_, fun x y h => h.elim⟩
      have ha := C51_size f.img.h f.img.w none (rnd (f.pix p).1) (rnd (f.pix p).2) n
      have h4 : interpretRoi f.img.h f.img.w none (some (rnd (f.pix p).1, rnd (f.pix p).2, (n : Int))) none = none := h4
      rw [h4] at ha
      have hx := (near_of rnd hr (f.pix p).1 n x).1 hx
      have hy := (near_of rnd hr (f.pix p).2 n y).1 hy
      exact ha ⟨x, y, hf, hx.1, hx.2, hy.1, hy.2⟩
    | some t =>
      obtain ⟨pre, d, post, f, b, h1, _, h3, h4, h5⟩ := h
      have ha := C51_size f.img.h f.img.w none (rnd (f.pix p).1) (rnd (f.pix p).2) n
      have h4 : interpretRoi f.img.h f.img.w none (some (rnd (f.pix p).1, rnd (f.pix p).2, (n : Int))) none = some (t.roi, b) := h4
      rw [h4] at ha
      obtain ⟨ha, _, _⟩ := ha
      have hp := h5.pos p
      have s1 := h5.size
      have hin := h5.inside
      have e1 : ∀ x : Int, (x : R) - (t.pix p).1 = ((x + t.roi.x0 : Int) : R) - (f.pix p).1 := by
        intro x; rw [hp]; push_cast; ring
      have e2 : ∀ y : Int, (y : R) - (t.pix p).2 = ((y + t.roi.y0 : Int) : R) - (f.pix p).2 := by
        intro y; rw [hp]; push_cast; ring
      have key : ∀ x y : Int, InImage t.data.h t.data.w x y ↔ t.roi.Has (x + t.roi.x0) (y + t.roi.y0) := by
        intro x y
        unfold InImage Region.Has
        omega
      refine ⟨d, by rw [h1]; simp, f, h3, fun x y hf hx hy => ?_, fun x y h => ?_⟩
      · rw [e1] at hx
        rw [e2] at hy
        have hx := (near_of rnd hr (f.pix p).1 n _).1 hx
        have hy := (near_of rnd hr (f.pix p).2 n _).1 hy
        rw [key, ha]
        exact ⟨hf, hx.1, hx.2, hy.1, hy.2⟩
      · rw [key, ha] at h
        obtain ⟨g, g1, g2, g3, g4⟩ := h
        refine ⟨g, ?_, ?_⟩
        · rw [e1]; exact (near_of rnd hr (f.pix p).1 n _).2 ⟨g1, g2⟩
        · rw [e2]; exact (near_of rnd hr (f.pix p).2 n _).2 ⟨g3, g4⟩

/-! #### An example -/

/-- Two directories; the first lacks inverse variances, the second has those of 4 x 5 pixels uncompressed. -/
def exFs : Fs (ℚ × ℚ) ℚ where
  image := fun d m => if m = true ∧ (d = "a" ∨ d = "b") then some ⟨⟨4, 5, fun y x => if d = "a" then 0 else 10 * y + x⟩, id, (some 1, some 4)⟩ else none
  plane := fun d k _ g => match k with
    | .iv => if d = "b" ∧ g = false then some ⟨4, 5, fun y x => 100 * y + x⟩ else none
    | .n => if g = true then some ⟨4, 5, fun y x => if y = 1 then 0 else x⟩ else none

/-- To the nearest integer. -/
def exRnd (x : ℚ) : Int := ⌊x + 1 / 2⌋

theorem exRounds : Rounds exRnd := by
  intro x
  unfold exRnd
  have h1 := Int.floor_le (x + 1 / 2)
  have h2 := Int.lt_floor_add_one (x + 1 / 2)
  rw [abs_le]
  constructor <;> linarith

example : SameShape exFs := by
  intro d m f k m' g a h1 h2
  simp only [exFs] at h1 h2
  split at h1
  · injection h1 with h1
    cases k
    · simp only at h2
      split at h2
      · injection h2 with h2; rw [← h1, ← h2]; exact ⟨rfl, rfl⟩
      · cases h2
    · simp only at h2
      split at h2
      · injection h2 with h2; rw [← h1, ← h2]; exact ⟨rfl, rfl⟩
      · cases h2
  · cases h1

example : (match unwiseImage exRnd (fun l => l) exFs ["x", "a", "b"] 4 true ⟨none, some ((7 / 2, 3 / 4), 1), none⟩ with
    | .ok (some t) => some (t.data.toLists, t.invvar.toLists, t.pix (7 / 2, 3 / 4), t.sig1, t.time)
    | _ => none) = some ([[3, 4], [13, 14], [23, 24]], [[3 / 4, 1], [0, 0], [203 / 4, 51]], (1 / 2, 3 / 4), [3 / 4, 1, 203 / 4, 51], some (5 / 2)) ∧
    (match unwiseImage exRnd (fun l => l) exFs ["x", "a", "b"] 4 true ⟨none, some ((17 / 2, 3 / 4), 1), none⟩ with | .ok none => true | _ => false) = true ∧
    (match unwiseImage exRnd (fun l => l) exFs ["x", "a"] 4 true ⟨none, none, none⟩ with | .error () => true | _ => false) = true := by
  decide +kernel

end Verif.Read
