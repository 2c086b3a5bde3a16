import Verif.Lemmas.Db
import Verif.Spec.SlLenient

/- Helper lemmas: a geometry that is accepted has counts that fit 32 bits, and no all-NaN point. -/

namespace Geozero
open Spec

private theorem counted_len {α : Type} {e : Endian} {R : α → List Byte → Prop} {Q : α → Prop} {xs : List α} {bs : List Byte}
    (hq : ∀ x b, R x b → Q x) (h : Counted e R xs bs) : xs.length < 2 ^ 32 ∧ ∀ x ∈ xs, Q x := by
  obtain ⟨h1, bb, -, h2⟩ := h
  exact ⟨h1, fun x hx => hq x _ (cat_mem h2 x hx).choose_spec⟩

section lenient
variable {H : LenientHeader}

private theorem member_len {f : Frame} {types : Nat → Prop} {body : Frame → List Byte → Prop} {Q : Prop} {bs : List Byte}
    (hq : ∀ f b, body f b → Q) (h : Member H f types body bs) : Q := by
  obtain ⟨f', _, _, bb, -, -, -, h⟩ := h
  exact hq f' bb h

private theorem pointsIn_len {cs : List Coord} {f : Frame} {bs : List Byte} (h : PointsIn cs f bs) : cs.length < 2 ^ 32 := h.1

private theorem ringsIn_len {rs : List (List Coord)} {f : Frame} {bs : List Byte} (h : RingsIn rs f bs) :
    rs.length < 2 ^ 32 ∧ ∀ l ∈ rs, l.length < 2 ^ 32 := counted_len (fun _ _ h => pointsIn_len h) h

private theorem segIn_len {f : Frame} {s : Seg} {bs : List Byte} (h : SegIn H f s bs) : Geom.Lens.SegLens (· < 2 ^ 32) s := by
  cases s <;> exact member_len (fun _ _ h => pointsIn_len h) h

private theorem compoundIn_len {f : Frame} {ss : List Seg} {bs : List Byte} (h : CompoundIn H ss f bs) :
    ss.length < 2 ^ 32 ∧ ∀ s ∈ ss, Geom.Lens.SegLens (· < 2 ^ 32) s := counted_len (fun _ _ h => segIn_len h) h

private theorem curveIn_len {f : Frame} {c : Curve} {bs : List Byte} (h : CurveIn H f c bs) :
    Geom.Lens.CurveLens (· < 2 ^ 32) c := by
  cases c with
  | seg s => exact segIn_len h
  | compound ss => exact member_len (fun _ _ h => compoundIn_len h) h

private theorem curvesIn_len {f : Frame} {cs : List Curve} {bs : List Byte} (h : CurvesIn H cs f bs) :
    cs.length < 2 ^ 32 ∧ ∀ s ∈ cs, Geom.Lens.CurveLens (· < 2 ^ 32) s := counted_len (fun _ _ h => curveIn_len h) h

private theorem surfaceIn_len {f : Frame} {s : Surface} {bs : List Byte} (h : SurfaceIn H f s bs) :
    Geom.Lens.SurfaceLens (· < 2 ^ 32) s := by
  cases s with
  | polygon rings => exact member_len (fun _ _ h => ringsIn_len h) h
  | curvePolygon rings => exact member_len (fun _ _ h => curvesIn_len h) h

mutual
theorem bodyIn_fits (H : LenientHeader) (g : Geom) (f : Frame) (bs : List Byte) (h : BodyIn H g f bs) :
    g.Lens (· < 2 ^ 32) ∧ g.hasNaNPoint = false := by
  cases g with
  | emptyPoint => exact ⟨trivial, rfl⟩
  | point c => exact ⟨trivial, by simp [Geom.hasNaNPoint, h.1]⟩
  | multiPoint cs => exact ⟨h.1, rfl⟩
  | lineString cs => exact ⟨pointsIn_len h, rfl⟩
  | circularString cs => exact ⟨pointsIn_len h, rfl⟩
  | compoundCurve ss => exact ⟨compoundIn_len h, rfl⟩
  | multiLineString ls => exact ⟨counted_len (fun _ _ h => member_len (fun _ _ h => pointsIn_len h) h) h, rfl⟩
  | multiCurve cs => exact ⟨curvesIn_len h, rfl⟩
  | polygon rs => exact ⟨ringsIn_len h, rfl⟩
  | triangle rs => exact ⟨ringsIn_len h, rfl⟩
  | curvePolygon rs => exact ⟨curvesIn_len h, rfl⟩
  | multiPolygon ps => exact ⟨counted_len (fun _ _ h => member_len (fun _ _ h => ringsIn_len h) h) h, rfl⟩
  | polyhedralSurface ps => exact ⟨counted_len (fun _ _ h => member_len (fun _ _ h => ringsIn_len h) h) h, rfl⟩
  | tin ps => exact ⟨counted_len (fun _ _ h => member_len (fun _ _ h => ringsIn_len h) h) h, rfl⟩
  | multiSurface ss => exact ⟨counted_len (fun _ _ h => surfaceIn_len h) h, rfl⟩
  | collection gs =>
    obtain ⟨h1, bb, -, h2⟩ := h
    obtain ⟨h3, h4⟩ := bodiesIn_fits H gs f bb h2
    exact ⟨⟨h1, h3⟩, h4⟩
theorem bodiesIn_fits (H : LenientHeader) (gs : List Geom) (f : Frame) (bs : List Byte) (h : BodiesIn H gs f bs) :
    Geom.LensList (· < 2 ^ 32) gs ∧ Geom.hasNaNPointList gs = false := by
  cases gs with
  | nil => exact ⟨trivial, rfl⟩
  | cons g gs =>
    obtain ⟨b1, b2, -, ⟨f', _, bb, -, -, h3⟩, h4⟩ := h
    obtain ⟨h5, h6⟩ := bodyIn_fits H g f' bb h3
    obtain ⟨h7, h8⟩ := bodiesIn_fits H gs f b2 h4
    exact ⟨⟨h5, h7⟩, by simp [Geom.hasNaNPointList, h6, h8]⟩
end
end lenient

namespace Sl
variable {fo : FOps} {H : Sl.LenientHeader}

private theorem smember_len {f : Sl.Frame} {types : Nat → Prop} {body : Sl.Frame → List Byte → Prop} {Q : Prop} {bs : List Byte}
    (hq : ∀ f b, body f b → Q) (h : Sl.Member H f types body bs) : Q := by
  obtain ⟨f', _, _, bb, -, -, -, h⟩ := h
  exact hq f' bb h

private theorem map_len {α β : Type} {m : α → β} {Q : β → Prop} {xs : List α} (h : xs.length < 2 ^ 32 ∧ ∀ x ∈ xs, Q (m x)) :
    (xs.map m).length < 2 ^ 32 ∧ ∀ y ∈ xs.map m, Q y := by
  simpa using h

private theorem inner_len (fo : FOps) (p : Coord) (δs : List Delta) : (inner fo p δs).length = δs.length := by
  induction δs generalizing p with
  | nil => rfl
  | cons δ δs ih => simp [inner, ih]

private theorem lineIn_len {l : Line} {f : Sl.Frame} {bs : List Byte} (h : LineIn fo l f bs) : l.vertices.length < 2 ^ 32 := by
  cases l with
  | plain cs => exact h.1.1
  | packed n cs last =>
    obtain ⟨_, hn, first, δs, rfl, h1, -⟩ := h
    simp only [Line.vertices, List.length_append, List.length_cons, inner_len, List.length_nil]
    rcases h1 with h1 | ⟨-, rfl⟩
    · omega
    · simp

private theorem sringsIn_len {rs : List Line} {f : Sl.Frame} {bs : List Byte} (h : Sl.RingsIn fo rs f bs) :
    (rs.map Line.vertices).length < 2 ^ 32 ∧ ∀ l ∈ rs.map Line.vertices, l.length < 2 ^ 32 :=
  map_len (counted_len (fun _ _ h => lineIn_len h) h)

private theorem ssegIn_len {f : Sl.Frame} {s : Sl.Seg} {bs : List Byte} (h : Sl.SegIn fo H f s bs) :
    Geom.Lens.SegLens (· < 2 ^ 32) s.meant := by
  cases s with
  | line l => exact smember_len (fun _ _ h => lineIn_len (fo := fo) h) h
  | circ cs => exact smember_len (fun _ _ h => pointsIn_len h) h

private theorem scompoundIn_len {f : Sl.Frame} {ss : List Sl.Seg} {bs : List Byte} (h : Sl.CompoundIn fo H ss f bs) :
    (ss.map Seg.meant).length < 2 ^ 32 ∧ ∀ s ∈ ss.map Seg.meant, Geom.Lens.SegLens (· < 2 ^ 32) s :=
  map_len (counted_len (fun _ _ h => ssegIn_len h) h)

private theorem scurveIn_len {f : Sl.Frame} {c : Sl.Curve} {bs : List Byte} (h : Sl.CurveIn fo H f c bs) :
    Geom.Lens.CurveLens (· < 2 ^ 32) c.meant := by
  cases c with
  | seg s => exact ssegIn_len h
  | compound ss => exact smember_len (fun _ _ h => scompoundIn_len h) h

private theorem scurvesIn_len {f : Sl.Frame} {cs : List Sl.Curve} {bs : List Byte} (h : Sl.CurvesIn fo H cs f bs) :
    (cs.map Curve.meant).length < 2 ^ 32 ∧ ∀ s ∈ cs.map Curve.meant, Geom.Lens.CurveLens (· < 2 ^ 32) s :=
  map_len (counted_len (fun _ _ h => scurveIn_len h) h)

private theorem ssurfaceIn_len {f : Sl.Frame} {s : Sl.Surface} {bs : List Byte} (h : Sl.SurfaceIn fo H f s bs) :
    Geom.Lens.SurfaceLens (· < 2 ^ 32) s.meant := by
  cases s with
  | polygon rings => exact smember_len (fun _ _ h => sringsIn_len (fo := fo) h) h
  | curvePolygon rings => exact smember_len (fun _ _ h => scurvesIn_len h) h

mutual
theorem meant_fits (fo : FOps) (H : Sl.LenientHeader) (g : Sl.Geom) (f : Sl.Frame) (bs : List Byte) (h : Sl.BodyIn fo H g f bs) :
    g.meant.Lens (· < 2 ^ 32) ∧ g.meant.hasNaNPoint = false := by
  cases g with
  | emptyPoint => exact ⟨trivial, rfl⟩
  | point c => exact ⟨trivial, by simp [Sl.Geom.meant, Geozero.Geom.hasNaNPoint, h.1]⟩
  | multiPoint cs => exact ⟨h.1, rfl⟩
  | lineString cs => exact ⟨lineIn_len (fo := fo) h, rfl⟩
  | circularString cs => exact ⟨pointsIn_len h, rfl⟩
  | compoundCurve ss => exact ⟨scompoundIn_len h, rfl⟩
  | multiLineString ls =>
    exact ⟨map_len (counted_len (fun _ _ h => smember_len (fun _ _ h => lineIn_len (fo := fo) h) h) h), rfl⟩
  | multiCurve cs => exact ⟨scurvesIn_len h, rfl⟩
  | polygon rs => exact ⟨sringsIn_len (fo := fo) h, rfl⟩
  | triangle rs => exact ⟨sringsIn_len (fo := fo) h, rfl⟩
  | curvePolygon rs => exact ⟨scurvesIn_len h, rfl⟩
  | multiPolygon ps =>
    exact ⟨map_len (counted_len (fun _ _ h => smember_len (fun _ _ h => sringsIn_len (fo := fo) h) h) h), rfl⟩
  | polyhedralSurface ps =>
    exact ⟨map_len (counted_len (fun _ _ h => smember_len (fun _ _ h => sringsIn_len (fo := fo) h) h) h), rfl⟩
  | tin ps =>
    exact ⟨map_len (counted_len (fun _ _ h => smember_len (fun _ _ h => sringsIn_len (fo := fo) h) h) h), rfl⟩
  | multiSurface ss => exact ⟨map_len (counted_len (fun _ _ h => ssurfaceIn_len h) h), rfl⟩
  | collection gs =>
    obtain ⟨h1, bb, -, h2⟩ := h
    obtain ⟨h3, h4, h5⟩ := meant_fitsList fo H gs f bb h2
    exact ⟨⟨by rw [h5]; exact h1, h3⟩, h4⟩
theorem meant_fitsList (fo : FOps) (H : Sl.LenientHeader) (gs : List Sl.Geom) (f : Sl.Frame) (bs : List Byte)
    (h : Sl.BodiesIn fo H gs f bs) :
    Geozero.Geom.LensList (· < 2 ^ 32) (meantList gs) ∧ Geozero.Geom.hasNaNPointList (meantList gs) = false ∧
      (meantList gs).length = gs.length := by
  cases gs with
  | nil => exact ⟨trivial, rfl, rfl⟩
  | cons g gs =>
    obtain ⟨b1, b2, -, ⟨f', _, bb, -, -, h3⟩, h4⟩ := h
    obtain ⟨h5, h6⟩ := meant_fits fo H g f' bb h3
    obtain ⟨h7, h8, h9⟩ := meant_fitsList fo H gs f b2 h4
    exact ⟨⟨h5, h7⟩, by simp [meantList, Geozero.Geom.hasNaNPointList, h6, h8], by simp [meantList, h9]⟩
end
end Sl
end Geozero
