import Verif.Props.Painted
import Verif.Props.RenderedExamples
import Verif.Props.DrawnExamples
/-
The bevelled block with a texture, loaded in single precision, and the cube in exact arithmetic: examples for C126.
-/
namespace Quarch
open Quarch.Spec Quarch.Spec.F32 Quarch.Geo
section
attribute [local instance] refPlatform

theorem wholeLib_turn : @AccurateTurn wholeLib := by
  let _ := wholeLib
  exact ⟨fun a v h1 h2 h3 h4 h5 h6 => turnLib_accurate.1 a v h1 h2 h3 h4 h5 h6⟩

theorem wholeLib_spin : @AccurateSpin wholeLib := by
  let _ := wholeLib
  exact ⟨fun n a v h1 h2 h3 h4 h5 => spinLib_accurate.1 n a v h1 h2 h3 h4 h5⟩

attribute [local instance] wholeLib wholeLib_accurate wholeLib_turn wholeLib_spin

/-- The worldspawn is shown; all textures have 64 by 128 texels. -/
noncomputable def paintedConfig : Config F32 :=
  ⟨some bevelMap, fun _ => some ⟨64, 128⟩, ⟨[], []⟩, ⟨[], [], []⟩,
    ⟨[⟨str! "worldspawn", .brush ⟨.cls (str! "world"), .script [], .properties, Map.empty⟩ ⟨.mesh, .none⟩⟩], []⟩⟩

theorem painted_shown : ∀ e ∈ [bevelEntity], ∀ br ∈ e.brushes, ∀ p ∈ br.planes, ShownFace paintedConfig e br p := by
  intro e he br hbr p hp
  cases List.mem_singleton.1 he
  cases List.mem_singleton.1 hbr
  refine .inr ⟨?_, ⟨_, _, _, ⟨str! "worldspawn", rfl, [], [], rfl, rfl, by simp⟩, rfl, rfl⟩, ⟨p, hp, ?_⟩, ?_⟩
  · rintro t ⟨_, ht, hall⟩
    have := hall (singleFace (bevel.head (by decide))) (List.mem_map_of_mem (by decide))
    cases Option.some.inj this
    revert ht
    decide
  · intro t _; exact List.not_mem_nil
  · intro t _; exact List.not_mem_nil

theorem bevel_nodup : (bevel.map singleFace).Nodup :=
  bevel_distinct.imp fun h e => h fun x => by rw [e]

theorem painted_layout (s : IntFace) (hs : s ∈ bevel) : CleanLayout ⟨64, 128⟩ (singleFace s) ∧ CleanAxes (singleFace s) := by
  have z : F32.val (Arith.zero : F32) = 0 := Rounding.zero_val (F := F32)
  have o : F32.val (Arith.one : F32) = 1 := Rounding.one_val (F := F32)
  have hd : DecidedFace (triOf (singleFace s)).normal := by
    rw [bevel_tris.1 s hs]; exact decided_int (bevel_decided s hs).1 (bevel_decided s hs).2
  have hr : |F32.val (singleFace s).rotation| ≤ 360 := by
    show |F32.val (Arith.zero : F32)| ≤ 360
    rw [z]; norm_num
  refine ⟨⟨⟨by norm_num, by norm_num, ⟨trivial, ?_⟩, ⟨trivial, ?_⟩, ⟨trivial, by rw [z]; norm_num⟩,
    ⟨trivial, by rw [z]; norm_num⟩⟩, hd, trivial, hr⟩, hd, trivial, hr, trivial, ?_⟩
  · show 1 / 4 ≤ |F32.val (Arith.one : F32)|; rw [o]; norm_num
  · show 1 / 4 ≤ |F32.val (Arith.one : F32)|; rw [o]; norm_num
  · show F32.val (Arith.one : F32) ≠ 0; rw [o]; norm_num

theorem bevel_flat : ∀ e ∈ [bevelEntity], e.properties (str! "_phong") ≠ some (str! "1") := by
  intro e he
  cases List.mem_singleton.1 he
  exact (by decide : (if str! "_phong" = str! "classname" then some (str! "worldspawn") else none) ≠ some (str! "1"))

/-- The scene has triangles, and each of them is on a face of the block, has texture coordinates as on its face, the normal of
its face and a tangent along the first axis of its plane of projection. -/
example : ∃ nodes, Quarch.run 1 id paintedConfig = .ok nodes ∧
    (∃ o vis s i j k, Occurs (.visual o vis) nodes ∧ s ∈ surfaces vis ∧ IndexTriple s.indices i j k) ∧
    ∀ o vis s i j k, Occurs (.visual o vis) nodes → s ∈ surfaces vis → IndexTriple s.indices i j k →
      ∃ t ∈ bevel, ∀ n ∈ [i, j, k], ∃ x, Corner32 (bevel.map singleFace) (singleFace t) x ∧
        (∃ a, s.vertices[n]? = some a ∧ Close (1 / 2000) (vec a) x) ∧
        (∃ a, s.normals[n]? = some a ∧ Close (1 / 1000000) (vec a) (intTri t).normal) ∧
        (∃ l c p q, s.uvs = some l ∧ l[n]? = some c ∧ Projected (intTri t).normal x p q ∧ AtTexel 64 c.x p ∧
          AtTexel 128 c.y q) ∧
        ∃ a z u, s.tangents[n]? = some u ∧ FirstAxis (intTri t).normal a z ∧ Close (1 / 50000) (vec u.1) a ∧
          F32.val u.2 = z := by
  have hfirm : ∀ e ∈ [bevelEntity], ∀ br ∈ e.brushes, IsFirm br.planes ∧ br.planes.Nodup := fun e he br hbr =>
    ⟨bevel_isFirm e he br hbr, by
      cases List.mem_singleton.1 he
      cases List.mem_singleton.1 hbr
      exact bevel_nodup⟩
  obtain ⟨nodes, hn, h⟩ := C126_loads 1 id (fun _ => .refl _) paintedConfig bevelMap rfl [bevelEntity]
    ((C92_text _ _).1 bevel_loads) hfirm bevel_flat bevel_world bevel_named bevel_ids bevel_tree (by simp)
  have z : F32.val (Arith.zero : F32) = 0 := Rounding.zero_val (F := F32)
  have o : F32.val (Arith.one : F32) = 1 := Rounding.one_val (F := F32)
  refine ⟨nodes, hn, ?_, ?_⟩
  · obtain ⟨-, h2⟩ := C123_everything 1 id (fun _ => .refl _) paintedConfig nodes hn bevelMap rfl [bevelEntity] bevel_loads
      bevel_isFirm bevel_anchored painted_shown
    obtain ⟨x, ⟨o, v, s, a, b, c, hocc, hs, ⟨t, i, j, k, hi, hj, hk, -⟩, -⟩, -⟩ := h2 ⟨12, 12, 0⟩
      ⟨_, List.mem_singleton.2 rfl, _, List.mem_singleton.2 rfl, (border_bevel _).2 ⟨(in_bevel _).2 (by norm_num), by norm_num⟩⟩
    exact ⟨o, v, s, i, j, k, hocc, hs, t, hi, hj, hk⟩
  · intro o' vis s i j k hocc hs hT
    obtain ⟨e, he, -, br, hbr, p, hp, -, -, x, y, w, px, py, pz, -⟩ := h o' vis s i j k hocc hs hT
    cases List.mem_singleton.1 he
    cases List.mem_singleton.1 hbr
    obtain ⟨t, htb, rfl⟩ := List.mem_map.1 hp
    refine ⟨t, htb, ?_⟩
    have key : ∀ n x, PaintedAt s n (bevel.map singleFace) (singleFace t) (some ⟨64, 128⟩) x →
        ∃ x, Corner32 (bevel.map singleFace) (singleFace t) x ∧
        (∃ a, s.vertices[n]? = some a ∧ Close (1 / 2000) (vec a) x) ∧
        (∃ a, s.normals[n]? = some a ∧ Close (1 / 1000000) (vec a) (intTri t).normal) ∧
        (∃ l c p q, s.uvs = some l ∧ l[n]? = some c ∧ Projected (intTri t).normal x p q ∧ AtTexel 64 c.x p ∧
          AtTexel 128 c.y q) ∧
        ∃ a z u, s.tangents[n]? = some u ∧ FirstAxis (intTri t).normal a z ∧ Close (1 / 50000) (vec u.1) a ∧
          F32.val u.2 = z := by
      intro n x hp
      obtain ⟨a, ha, -, ca⟩ := hp.pos
      obtain ⟨b, hb, -, cb⟩ := hp.normal
      obtain ⟨l, c, hl, hc, p, q, hpr, h1, h2⟩ := hp.uv _ rfl (painted_layout t htb).1
      obtain ⟨u, hu, d, r, hfa, -, cd, -, hr⟩ := hp.tangent (painted_layout t htb).2
      rw [bevel_tris.1 t htb] at cb hpr hfa cd
      have e1 : F32.val (singleFace t).rotation = 0 := z
      have e2 : F32.val (singleFace t).scale.x = 1 := o
      have e3 : F32.val (singleFace t).scale.y = 1 := o
      rw [e1, e2, z] at h1
      rw [e1, e3, z] at h2
      rw [e1] at cd
      rw [e3] at hr
      refine ⟨x, hp.corner, ⟨a, ha, ca⟩, ⟨b, hb, cb⟩, ⟨l, c, p, q, hl, hc, hpr, ?_, ?_⟩, d, r, u, hu, hfa, ?_, ?_⟩
      · simpa using h1
      · simpa using h2
      · simpa [spun, addR, smulR, crossR] using cd
      · simpa [signR] using hr
    intro n hn
    simp only [List.mem_cons, List.not_mem_nil, or_false] at hn
    rcases hn with rfl | rfl | rfl
    · exact key _ x px
    · exact key _ y py
    · exact key _ w pz

end

section
attribute [local instance] refPlatform cubeText

/-- In exact arithmetic every triangle of the cube has exactly the outward direction of its face at all corners. -/
example : ∃ nodes, Quarch.run 1 id (cubeConfig ⟨[], []⟩) = .ok nodes ∧
    ∀ o vis s i j k, Occurs (.visual o vis) nodes → s ∈ surfaces vis → IndexTriple s.indices i j k →
      ∃ p ∈ Cube.planes, ∀ n ∈ [i, j, k], s.normals[n]? = some (unitR (rawNormal p)) ∧
        ∃ a, s.vertices[n]? = some a ∧ OnPlane p a := by
  obtain ⟨nodes, h⟩ := cube_run ⟨[], []⟩
  have hflat : ∀ e ∈ [cubeEntity], Anchored [cubeEntity] e → e.properties (str! "_phong") ≠ some (str! "1") := by
    intro e he _
    cases List.mem_singleton.1 he
    exact (by decide : (if str! "_phong" = str! "classname" then some (str! "worldspawn") else none) ≠ some (str! "1"))
  have key := C126_exact 1 id (fun _ => .refl _) _ nodes h cubeMap rfl [cubeEntity] cube_loads
    (fun e he _ br hbr => by
      cases List.mem_singleton.1 he
      cases List.mem_singleton.1 hbr
      simp only [Cube.planes, List.pairwise_cons, List.forall_mem_cons, List.not_mem_nil, IsEmpty.forall_iff, implies_true,
        List.Pairwise.nil, and_true]
      norm_num [unitR, smulR, lenR, dotR, rawNormal, crossR, subR, Cube.face, Cube.xp, Cube.xn, Cube.yp, Cube.yn, Cube.zp,
        Cube.zn]) hflat
  refine ⟨nodes, h, fun o vis s i j k hocc hs hT => ?_⟩
  obtain ⟨e, he, ha, br, hbr, p, hp, -, -, face, hface, x, y, z, hxyz, d1, d2, d3⟩ := key.1 o vis s i j k hocc hs hT
  cases List.mem_singleton.1 he
  cases List.mem_singleton.1 hbr
  obtain ⟨t, _, _, _, -, -, -, h4, h5, h6⟩ := hxyz
  have m1 := List.mem_of_getElem? h4
  have m2 := List.mem_of_getElem? h5
  have m3 := List.mem_of_getElem? h6
  have c : ∀ {n : Nat} {v : Vertex ℝ}, v ∈ face.vertices → DataAt s n v → s.normals[n]? = some (unitR (rawNormal p)) ∧
      ∃ a, s.vertices[n]? = some a ∧ OnPlane p a := by
    intro n v hv hd
    obtain ⟨⟨_, _, _, _, _, ho, _⟩, _⟩ := ((C20_exact_corners _ _ _ _ _ hface).2 v.pos).1 (List.mem_map_of_mem hv)
    refine ⟨?_, v.pos, hd.pos, ho⟩
    rw [hd.normal, (C29_flat _ _ _ _ _ hface (hflat _ he ha) v hv).1]
  refine ⟨p, hp, fun n hn => ?_⟩
  simp only [List.mem_cons, List.not_mem_nil, or_false] at hn
  rcases hn with rfl | rfl | rfl
  · exact c m1 d1
  · exact c m2 d2
  · exact c m3 d3

end
end Quarch
