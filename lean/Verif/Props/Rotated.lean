import Verif.Props.TangentExamples
/-
C74: for which rotations the first texture coordinate grows along the tangent.
-/
set_option linter.unusedSectionVars false
namespace Quarch
open Spec Geo

section
variable [RealText] [Platform]

theorem on_face {textures : TextureInfo} {entity : Entity ℝ} {planes : List (BrushPlane ℝ)} {plane : BrushPlane ℝ}
    {geo : PlaneGeo ℝ} (h : buildPlane textures entity planes plane = .ok geo) {v w : Vertex ℝ} (hv : v ∈ geo.vertices)
    (hw : w ∈ geo.vertices) : dotR (rawNormal plane) (subR w.pos v.pos) = 0 := by
  obtain ⟨⟨_, _, _, _, _, h1, _⟩, _⟩ := ((C20_exact_corners _ _ _ _ _ h).2 v.pos).1 (List.mem_map_of_mem hv)
  obtain ⟨⟨_, _, _, _, _, h2, _⟩, _⟩ := ((C20_exact_corners _ _ _ _ _ h).2 w.pos).1 (List.mem_map_of_mem hw)
  unfold OnPlane at h1 h2
  simp only [dotR, subR] at *
  linarith

/-- C74, Valve layout: between any two corners of a face the first texture coordinate changes by the distance along the
tangent, in texels. -/
theorem C74_valve_along_partial (textures : TextureInfo) (entity : Entity ℝ) (planes : List (BrushPlane ℝ))
    (plane : BrushPlane ℝ) (geo : PlaneGeo ℝ) (h : buildPlane textures entity planes plane = .ok geo)
    (tx : Texture) (htx : textures plane.texture = some tx) (uAxis vAxis : V3 ℝ) (uOff vOff : ℝ)
    (huv : plane.uv = .valve uAxis uOff vAxis vOff) (v w : Vertex ℝ) (hv : v ∈ geo.vertices) (hw : w ∈ geo.vertices) :
    ∃ a b : V2 ℝ, v.uv = some a ∧ w.uv = some b ∧
      b.x - a.x = dotR v.tangent.1 (subR w.pos v.pos) / (tx.width * plane.scale.x) := by
  have e1 := C30_valve _ _ _ _ _ h tx htx _ _ _ _ huv v hv
  have e2 := C30_valve _ _ _ _ _ h tx htx _ _ _ _ huv w hw
  refine ⟨_, _, e1, e2, ?_⟩
  rw [C73_valve _ _ _ _ _ h _ _ _ _ huv v hv]
  simp only [dotR, subR]
  ring

theorem axis_projected {n x a : V3 ℝ} {s p q : ℝ} (ht : TangentAxis n a s) (h : Projected n x p q) : dotR a x = p := by
  unfold TangentAxis at ht
  unfold Projected at h
  rcases ht with ⟨h1, h2, rfl, rfl⟩ | ⟨h1, h2, rfl, rfl⟩ | ⟨h1, h2, rfl, rfl⟩ <;>
    rcases h with ⟨h3, h4, rfl, rfl⟩ | ⟨h3, h4, rfl, rfl⟩ | ⟨h3, h4, rfl, rfl⟩ <;>
    first
      | (exfalso; linarith)
      | simp [dotR]

theorem axis_sign {n a : V3 ℝ} {s : ℝ} (ht : TangentAxis n a s) : s = 1 ∨ s = -1 := by
  unfold TangentAxis at ht
  rcases ht with ⟨_, _, _, rfl⟩ | ⟨_, _, _, rfl⟩ | ⟨_, _, _, rfl⟩
  · exact sgn_cases _
  · rcases sgn_cases n.y with h | h <;> rw [h] <;> norm_num
  · exact sgn_cases _

/-- C74, standard layout, turned by any number of half turns, faces of any direction: between any two corners of a face the
first texture coordinate changes by the distance along the tangent, in texels. -/
theorem C74_half_turns_partial (textures : TextureInfo) (entity : Entity ℝ) (planes : List (BrushPlane ℝ))
    (plane : BrushPlane ℝ) (geo : PlaneGeo ℝ) (h : buildPlane textures entity planes plane = .ok geo)
    (tx : Texture) (htx : textures plane.texture = some tx) (uOff vOff : ℝ) (huv : plane.uv = .quake uOff vOff)
    (k : ℤ) (hr : plane.rotation = 180 * k) (v w : Vertex ℝ) (hv : v ∈ geo.vertices) (hw : w ∈ geo.vertices) :
    ∃ a b : V2 ℝ, v.uv = some a ∧ w.uv = some b ∧
      b.x - a.x = dotR v.tangent.1 (subR w.pos v.pos) / (tx.width * plane.scale.x) := by
  obtain ⟨p, q, h1, e1⟩ := C30_standard _ _ _ _ _ h tx htx _ _ huv v hv
  obtain ⟨p', q', h2, e2⟩ := C30_standard _ _ _ _ _ h tx htx _ _ huv w hw
  obtain ⟨a, s, h3, h4, _⟩ := C73_standard _ _ _ _ _ h _ _ huv v hv
  have hang : plane.rotation * Real.pi / 180 = k * Real.pi := by rw [hr]; ring
  rw [hang] at e1 e2 h4
  have hsin : Real.sin (k * Real.pi) = 0 := Real.sin_int_mul_pi k
  have hc : Real.cos (-(k * Real.pi) * s) = Real.cos (k * Real.pi) := by rcases axis_sign h3 with rfl | rfl <;> simp
  have hs : Real.sin (-(k * Real.pi) * s) = 0 := by rcases axis_sign h3 with rfl | rfl <;> simp [hsin]
  refine ⟨_, _, e1, e2, ?_⟩
  have hd : dotR (turned (unitR (rawNormal plane)) (-(k * Real.pi) * s) a) (subR w.pos v.pos) =
      Real.cos (k * Real.pi) * (p' - p) := by
    have h0 : dotR (unitR (rawNormal plane)) (subR w.pos v.pos) = 0 := by
      have := on_face h hv hw
      simp only [unitR, smulR, dotR] at *
      rw [show ∀ l x y z a b c : ℝ, l * x * a + l * y * b + l * z * c = l * (x * a + y * b + z * c) by intros; ring, this,
        mul_zero]
    have h5 := axis_projected h3 h1
    have h6 := axis_projected h3 h2
    unfold turned
    rw [hc, hs]
    have : ∀ (c e : ℝ) (n a d : V3 ℝ), dotR (addR (addR (smulR c a) (smulR 0 (crossR n a))) (smulR e n)) d =
        c * dotR a d + e * dotR n d := by
      intro c e n a d; simp only [dotR, addR, smulR, crossR]; ring
    rw [this, h0, mul_zero, add_zero, ← h5, ← h6]
    simp only [dotR, subR]
    ring
  rw [h4, hd, hsin]
  simp only
  ring

/-- On a face along a coordinate axis the turned tangent has projected coordinates `(cos r, sin r)`. -/
theorem dot_turned {n x y a : V3 ℝ} {s p q p' q' : ℝ} (hn : n ≠ zeroR) (hx : AxisAligned n) (ht : TangentAxis n a s)
    (h : Projected n x p q) (h' : Projected n y p' q') (h0 : dotR n (subR y x) = 0) (r : ℝ) :
    dotR (turned (unitR n) (-r * s) a) (subR y x) = Real.cos r * (p' - p) + Real.sin r * (q' - q) := by
  have hc : Real.cos (-r * s) = Real.cos r := by rcases axis_sign ht with rfl | rfl <;> simp
  have hsin : Real.sin (-r * s) = -(s * Real.sin r) := by rcases axis_sign ht with rfl | rfl <;> simp
  unfold turned
  rw [hc, hsin]
  unfold TangentAxis at ht
  unfold Projected at h h'
  obtain ⟨nx, ny, nz⟩ := n
  rcases hx with ⟨e1, e2⟩ | ⟨e1, e2⟩ | ⟨e1, e2⟩ <;> simp only at e1 e2 <;> subst e1 <;> subst e2
  · have hz : nz ≠ 0 := fun e => hn (by rw [e]; rfl)
    have hln : lenR ⟨0, 0, nz⟩ = |nz| := by simp [lenR, dotR, Real.sqrt_mul_self_eq_abs]
    have hp := abs_pos.2 hz
    have hk := sgn_mul_div_len hz hln
    rcases ht with ⟨h1, h2, rfl, rfl⟩ | ⟨h1, h2, rfl, rfl⟩ | ⟨h1, h2, rfl, rfl⟩ <;>
    rcases h with ⟨h3, h4, rfl, rfl⟩ | ⟨h3, h4, rfl, rfl⟩ | ⟨h3, h4, rfl, rfl⟩ <;>
    rcases h' with ⟨h5, h6, rfl, rfl⟩ | ⟨h5, h6, rfl, rfl⟩ | ⟨h5, h6, rfl, rfl⟩ <;>
    simp only [abs_zero] at * <;>
    first
      | (exfalso; linarith)
      | (simp only [addR, smulR, crossR, unitR, dotR, subR]
         linear_combination (-(Real.sin r) * (y.y - x.y)) * hk)
  · have hz : ny ≠ 0 := fun e => hn (by rw [e]; rfl)
    have hln : lenR ⟨0, ny, 0⟩ = |ny| := by simp [lenR, dotR, Real.sqrt_mul_self_eq_abs]
    have hp := abs_pos.2 hz
    have hk := sgn_mul_div_len hz hln
    rcases ht with ⟨h1, h2, rfl, rfl⟩ | ⟨h1, h2, rfl, rfl⟩ | ⟨h1, h2, rfl, rfl⟩ <;>
    rcases h with ⟨h3, h4, rfl, rfl⟩ | ⟨h3, h4, rfl, rfl⟩ | ⟨h3, h4, rfl, rfl⟩ <;>
    rcases h' with ⟨h5, h6, rfl, rfl⟩ | ⟨h5, h6, rfl, rfl⟩ | ⟨h5, h6, rfl, rfl⟩ <;>
    simp only [abs_zero] at * <;>
    first
      | (exfalso; linarith)
      | (simp only [addR, smulR, crossR, unitR, dotR, subR]
         linear_combination (-(Real.sin r) * (y.z - x.z)) * hk)
  · have hz : nx ≠ 0 := fun e => hn (by rw [e]; rfl)
    have hln : lenR ⟨nx, 0, 0⟩ = |nx| := by simp [lenR, dotR, Real.sqrt_mul_self_eq_abs]
    have hp := abs_pos.2 hz
    have hk := sgn_mul_div_len hz hln
    rcases ht with ⟨h1, h2, rfl, rfl⟩ | ⟨h1, h2, rfl, rfl⟩ | ⟨h1, h2, rfl, rfl⟩ <;>
    rcases h with ⟨h3, h4, rfl, rfl⟩ | ⟨h3, h4, rfl, rfl⟩ | ⟨h3, h4, rfl, rfl⟩ <;>
    rcases h' with ⟨h5, h6, rfl, rfl⟩ | ⟨h5, h6, rfl, rfl⟩ | ⟨h5, h6, rfl, rfl⟩ <;>
    simp only [abs_zero] at * <;>
    first
      | (exfalso; linarith)
      | (simp only [addR, smulR, crossR, unitR, dotR, subR]
         linear_combination (-(Real.sin r) * (y.z - x.z)) * hk)

theorem projected_unique {n x : V3 ℝ} {p q p' q' : ℝ} (h : Projected n x p q) (h' : Projected n x p' q') :
    p = p' ∧ q = q' := by
  unfold Projected at h h'
  rcases h with ⟨h1, h2, rfl, rfl⟩ | ⟨h1, h2, rfl, rfl⟩ | ⟨h1, h2, rfl, rfl⟩ <;>
    rcases h' with ⟨h3, h4, rfl, rfl⟩ | ⟨h3, h4, rfl, rfl⟩ | ⟨h3, h4, rfl, rfl⟩ <;>
    first
      | (exfalso; linarith)
      | exact ⟨rfl, rfl⟩

/-- C74, standard layout on a face along a coordinate axis: between two corners that differ only along the second axis of the
projection, the first texture coordinate changes by the distance along the tangent in texels, but the other way; this is no
change only for half turns. -/
theorem C74_reversed (textures : TextureInfo) (entity : Entity ℝ) (planes : List (BrushPlane ℝ))
    (plane : BrushPlane ℝ) (geo : PlaneGeo ℝ) (h : buildPlane textures entity planes plane = .ok geo)
    (tx : Texture) (htx : textures plane.texture = some tx) (uOff vOff : ℝ)
    (huv : plane.uv = .quake uOff vOff) (hax : AxisAligned (rawNormal plane))
    (v w : Vertex ℝ) (hv : v ∈ geo.vertices) (hw : w ∈ geo.vertices) (p q q' : ℝ)
    (h1 : Projected (rawNormal plane) v.pos p q) (h2 : Projected (rawNormal plane) w.pos p q') :
    dotR v.tangent.1 (subR w.pos v.pos) = Real.sin (plane.rotation * Real.pi / 180) * (q' - q) ∧
    ∃ a b : V2 ℝ, v.uv = some a ∧ w.uv = some b ∧
      b.x - a.x = -dotR v.tangent.1 (subR w.pos v.pos) / (tx.width * plane.scale.x) := by
  obtain ⟨p1, q1, g1, e1⟩ := C30_standard _ _ _ _ _ h tx htx _ _ huv v hv
  obtain ⟨p2, q2, g2, e2⟩ := C30_standard _ _ _ _ _ h tx htx _ _ huv w hw
  obtain ⟨a, s, h3, h4, _⟩ := C73_standard _ _ _ _ _ h _ _ huv v hv
  have hnd := (vertex_tangent_real h hv).1
  obtain ⟨rfl, rfl⟩ := projected_unique g1 h1
  obtain ⟨rfl, rfl⟩ := projected_unique g2 h2
  have hd := dot_turned hnd hax h3 h1 h2 (on_face h hv hw) (plane.rotation * Real.pi / 180)
  rw [sub_self, mul_zero, zero_add] at hd
  rw [h4]
  refine ⟨hd, _, _, e1, e2, ?_⟩
  rw [hd]
  simp only
  ring

end

section
open Cube
variable [RealText] [Platform]

/-- C74: in standard layout the first texture coordinate grows along the tangent for all faces with a given rotation exactly if
this is a number of half turns. -/
theorem C74_rotation_iff (textures : TextureInfo) (htx : textures (str! "brick") = some ⟨64, 64⟩) (entity : Entity ℝ)
    (r : ℝ) :
    (∀ planes, ∀ plane ∈ planes, plane.texture = str! "brick" → 0 < plane.scale.x → 0 < plane.scale.y →
      (∃ u v, plane.uv = .quake u v) → plane.rotation = r → ∀ geo, buildPlane textures entity planes plane = .ok geo →
      ∀ v ∈ geo.vertices, ∀ w ∈ geo.vertices, 0 < dotR v.tangent.1 (subR w.pos v.pos) →
      ∃ a b : V2 ℝ, v.uv = some a ∧ w.uv = some b ∧ a.x < b.x) ↔ ∃ k : ℤ, r = 180 * k := by
  constructor
  · intro hall
    by_contra hk
    have hsin : Real.sin (r * Real.pi / 180) ≠ 0 := by
      intro h0
      obtain ⟨k, hk'⟩ := Real.sin_eq_zero_iff.1 h0
      refine hk ⟨k, ?_⟩
      have hpi := Real.pi_pos
      field_simp at hk'
      linarith
    obtain ⟨geo, h⟩ := buildPlane_real textures entity (stdPlanes r) (std r)
    obtain ⟨v, hv, e⟩ := stdCorner _ _ _ _ h ⟨1, 0, 0⟩ rfl (.inl rfl) (.inl rfl)
    obtain ⟨w, hw, e'⟩ := stdCorner _ _ _ _ h ⟨1, 0, 1⟩ rfl (.inl rfl) (.inr rfl)
    have hax : AxisAligned (rawNormal (std r)) := by rw [raw_std]; exact .inr (.inr ⟨rfl, rfl⟩)
    have pv : Projected (rawNormal (std r)) v.pos 0 0 := by
      rw [raw_std, e]; exact .inr (.inr ⟨by norm_num, by norm_num, rfl, by simp⟩)
    have pw : Projected (rawNormal (std r)) w.pos 0 (-1) := by
      rw [raw_std, e']; exact .inr (.inr ⟨by norm_num, by norm_num, rfl, by simp⟩)
    have go : ∀ {v w : Vertex ℝ} {q q' : ℝ}, v ∈ geo.vertices → w ∈ geo.vertices →
        Projected (rawNormal (std r)) v.pos 0 q → Projected (rawNormal (std r)) w.pos 0 q' →
        ¬ 0 < Real.sin (r * Real.pi / 180) * (q' - q) := by
      intro v w q q' hv hw pv pw hpos
      obtain ⟨h1, a, b, ha, hb, h2⟩ := C74_reversed _ _ _ _ _ h ⟨64, 64⟩ htx 0 0 rfl hax v w hv hw 0 q q' pv pw
      have h1' : dotR v.tangent.1 (subR w.pos v.pos) = Real.sin (r * Real.pi / 180) * (q' - q) := h1
      obtain ⟨a', b', ha', hb', hlt⟩ := hall (stdPlanes r) (std r) (by simp [stdPlanes]) rfl (by unfold std xp face; norm_num)
        (by unfold std xp face; norm_num) ⟨0, 0, rfl⟩ rfl geo h v hv w hw (by rw [h1']; exact hpos)
      rw [ha] at ha'; cases ha'
      rw [hb] at hb'; cases hb'
      rw [h1'] at h2
      have : -(Real.sin (r * Real.pi / 180) * (q' - q)) / ((64 : ℕ) * (std r).scale.x) < 0 :=
        div_neg_of_neg_of_pos (by linarith) (by unfold std xp face; norm_num)
      simp only at h2
      linarith
    have g1 := go hv hw pv pw
    have g2 := go hw hv pw pv
    apply hsin
    linarith
  · rintro ⟨k, rfl⟩ planes plane - ht hx hy ⟨uo, vo, huv⟩ hr geo h v hv w hw hpos
    obtain ⟨a, b, ha, hb, hd⟩ := C74_half_turns_partial _ _ _ _ _ h ⟨64, 64⟩ (by rw [ht]; exact htx) uo vo huv k hr v w hv hw
    refine ⟨a, b, ha, hb, ?_⟩
    have : 0 < dotR v.tangent.1 (subR w.pos v.pos) / ((64 : ℕ) * plane.scale.x) :=
      div_pos hpos (mul_pos (by norm_num) hx)
    simp only at hd
    linarith

/-- Half turns and a quarter turn. -/
example : (∃ k : ℤ, (-540 : ℝ) = 180 * k) ∧ ¬ ∃ k : ℤ, (90 : ℝ) = 180 * k := by
  refine ⟨⟨-3, by norm_num⟩, fun ⟨k, hk⟩ => ?_⟩
  have : (1 : ℝ) = (2 * k : ℤ) := by push_cast; linarith
  have : (1 : ℤ) = 2 * k := by exact_mod_cast this
  omega

end
end Quarch
