import Verif.Forced.StatsLemmas

/-!
# What the fit statistics of forced photometry should be

Written without the helper functions of the model: sums over all pixels of the image, no boxes, no work arrays.
-/

namespace Verif.Forced

open Verif Patches

variable {R : Type} [Field R] [LinearOrder R]

/-- Sum over the pixels of an image. -/
def pixSum {M : Type} [AddCommMonoid M] (h w : Nat) (f : Nat → Nat → M) : M :=
  ∑ y ∈ Finset.range h, ∑ x ∈ Finset.range w, f y x

/-- The model of a source, a sum over (unit-flux model, counts) of its components. -/
def compsAt (l : List (Option (Patch R) × R)) (x y : Int) : R := (l.map (fun q => unitAt q.1 x y * q.2)).sum

/-- A source is seen in an image: its profile is not zero at some pixel that is not masked. -/
def Seen (b : Best R) (p : Nat → Nat → R) : Prop := ∃ y < b.h, ∃ x < b.w, p y x ≠ 0 ∧ 0 < b.ie y x

instance (b : Best R) (p : Nat → Nat → R) : Decidable (Seen b p) := by unfold Seen; infer_instance

/-- What one image contributes to the sums of a source with profile `p` and total counts `sc`; `m` is the model image of
everything but the sky. -/
def contribution (b : Best R) (m p : Nat → Nat → R) (sc : R) : Acc R where
  prochi2 := pixSum b.h b.w (fun y x => if 0 < b.ie y x then |p y x| * b.chi y x ^ 2 else 0)
  pronpix := pixSum b.h b.w (fun y x => if 0 < b.ie y x then |p y x| else 0)
  promasked := if Seen b p then pixSum b.h b.w (fun y x => if b.ie y x = 0 then |p y x| else 0) else 0
  fracfluxNum := if Seen b p then
      pixSum b.h b.w (fun y x => if 0 < b.ie y x then |m y x / sc - p y x| * |p y x| else 0) /
        pixSum b.h b.w (fun y x => if 0 < b.ie y x then p y x ^ 2 else 0)
    else 0
  fracfluxDen := pixSum b.h b.w (fun y x => if 0 < b.ie y x then |p y x| / |sc| else 0)
  proflux := pixSum b.h b.w (fun y x => if 0 < b.ie y x then |(m y x - p y x * sc) / b.scale| * |p y x| else 0)
  npix := pixSum b.h b.w (fun y x => if p y x ≠ 0 ∧ 0 < b.ie y x then 1 else 0)
  fracinNum := if Seen b p then pixSum b.h b.w (fun y x => |p y x|) else 0
  fracinDen := if Seen b p then 1 else 0
  extras := b.extras.map (fun e => pixSum b.h b.w (fun y x => if 0 < b.ie y x then |p y x| * e y x else 0))

/-- Sums add up field by field. -/
def Acc.add (a b : Acc R) : Acc R where
  prochi2 := a.prochi2 + b.prochi2
  pronpix := a.pronpix + b.pronpix
  promasked := a.promasked + b.promasked
  fracfluxNum := a.fracfluxNum + b.fracfluxNum
  fracfluxDen := a.fracfluxDen + b.fracfluxDen
  proflux := a.proflux + b.proflux
  npix := a.npix + b.npix
  fracinNum := a.fracinNum + b.fracinNum
  fracinDen := a.fracinDen + b.fracinDen
  extras := List.zipWith (· + ·) a.extras b.extras

end Verif.Forced
