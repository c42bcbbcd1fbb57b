import Verif.Props.Zero
import Verif.Props.PaintedExamples
/-
The bevelled block with a texture without width: examples for C136.
-/
namespace Quarch
open Quarch.Spec Quarch.Spec.F32 Quarch.Geo
section
attribute [local instance] refPlatform
attribute [local instance] wholeLib wholeLib_accurate wholeLib_turn wholeLib_spin

/-- The block is shown with textures of 0 by 128 texels. -/
noncomputable def narrowConfig : Config F32 := { paintedConfig with textureInfo := fun _ => some ⟨0, 128⟩ }

theorem narrow_config : narrowConfig.mapFile = some bevelMap := rfl

/-- The map is loaded, there are triangles, and each corner of each triangle has a first texture coordinate that is not a
number of finite size. -/
example : ∃ nodes, Quarch.run 1 id narrowConfig = .ok nodes ∧
    (∃ o vis s i j k, Occurs (.visual o vis) nodes ∧ s ∈ surfaces vis ∧ IndexTriple s.indices i j k) ∧
    ∀ o vis s i j k, Occurs (.visual o vis) nodes → s ∈ surfaces vis → IndexTriple s.indices i j k →
      ∀ n ∈ [i, j, k], ∃ l uv, s.uvs = some l ∧ l[n]? = some uv ∧ ¬ isFin uv.x := by
  have hfirm : ∀ e ∈ [bevelEntity], ∀ br ∈ e.brushes, IsFirm br.planes ∧ br.planes.Nodup := fun e he br hbr =>
    ⟨bevel_isFirm e he br hbr, by
      cases List.mem_singleton.1 he
      cases List.mem_singleton.1 hbr
      exact bevel_nodup⟩
  obtain ⟨nodes, hn, -⟩ := C126_loads 1 id (fun _ => .refl _) narrowConfig bevelMap narrow_config [bevelEntity]
    ((C92_text _ _).1 bevel_loads) hfirm bevel_flat bevel_world bevel_named bevel_ids bevel_tree (by simp)
  refine ⟨nodes, hn, ?_, ?_⟩
  · obtain ⟨-, h2⟩ := C123_everything 1 id (fun _ => .refl _) narrowConfig nodes hn bevelMap narrow_config [bevelEntity]
      bevel_loads bevel_isFirm bevel_anchored painted_shown
    obtain ⟨x, ⟨o, v, s, a, b, c, hocc, hs, ⟨t, i, j, k, hi, hj, hk, -⟩, -⟩, -⟩ := h2 ⟨12, 12, 0⟩
      ⟨_, List.mem_singleton.2 rfl, _, List.mem_singleton.2 rfl, (border_bevel _).2 ⟨(in_bevel _).2 (by norm_num), by norm_num⟩⟩
    exact ⟨o, v, s, i, j, k, hocc, hs, t, hi, hj, hk⟩
  · intro o vis s i j k hocc hs hT n hmem
    obtain ⟨e, he, -, br, hbr, p, hp, -, hk, -⟩ := (C126_sources 1 id (fun _ => .refl _) narrowConfig nodes hn bevelMap
      narrow_config [bevelEntity] bevel_loads o vis s hocc hs).2 i j k hT
    obtain ⟨l, h1, h2⟩ := (C136_scene 1 id (fun _ => .refl _) narrowConfig nodes hn bevelMap narrow_config [bevelEntity]
      bevel_loads o vis s hocc hs p.texture hk.symm).1 fun _ _ _ _ _ _ _ => ⟨⟨0, 128⟩, rfl, .inl rfl⟩
    obtain ⟨uv, h3, h4⟩ := h2 i j k hT n hmem
    exact ⟨l, uv, h1, h3, h4⟩

/-- Both zeros count; a scale of zero has the same effect as a texture without width, whatever the layout. -/
example (p : BrushPlane F32) (hs : p.scale = ⟨Arith.zero, Arith.one⟩) :
    ZeroAcross (fun _ => some ⟨64, 64⟩) p ∧ ¬ ZeroDown (fun _ => some ⟨64, 64⟩) p := by
  have z : F32.val (Arith.zero : F32) = 0 := Rounding.zero_val (F := F32)
  have o : F32.val (Arith.one : F32) = 1 := Rounding.one_val (F := F32)
  refine ⟨⟨⟨64, 64⟩, rfl, .inr ?_⟩, ?_⟩
  · rw [hs]; exact ⟨trivial, z⟩
  · rintro ⟨tx, htx, h⟩
    cases htx
    rcases h with h | h
    · cases h
    · rw [hs] at h
      have := h.2
      rw [show (V2.mk (Arith.zero : F32) Arith.one).y = Arith.one from rfl, o] at this
      norm_num at this

end
end Quarch
