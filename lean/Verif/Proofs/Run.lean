import Verif.Proofs.Tree
import Verif.Props.Layers
import Verif.Model.Lib
/-
The pipeline of `run` and which failures its steps can have.
-/
set_option linter.unusedSectionVars false
namespace Quarch
open Spec Scene

/-! ### steps that either succeed or panic -/

/-- The call returns a value or panics. -/
def Plain {α : Type} (x : Outcome α) : Prop := (∃ a, x = .ok a) ∨ ∃ m, x = .panic m

theorem Plain.ok {α : Type} (a : α) : Plain (.ok a) := .inl ⟨a, rfl⟩
theorem Plain.panic {α : Type} (m : String) : Plain (.panic m : Outcome α) := .inr ⟨m, rfl⟩

theorem Plain.bind {α β : Type} {x : Outcome α} {f : α → Outcome β} (h : Plain x)
    (hf : ∀ a, Plain (f a)) : Plain (x.bind f) := by
  rcases h with ⟨a, rfl⟩ | ⟨m, rfl⟩
  · exact hf a
  · exact .panic m

theorem Plain.mapOut {α β : Type} {f : α → Outcome β} {l : List α} (hf : ∀ a ∈ l, Plain (f a)) :
    Plain (mapOut f l) := by
  induction l with
  | nil => exact .ok _
  | cons x xs ih =>
    exact (hf x (by simp)).bind fun _ => (ih fun a ha => hf a (by simp [ha])).bind fun _ => .ok _

theorem Plain.foldOut {σ α : Type} {f : σ → α → Outcome σ} (hf : ∀ s a, Plain (f s a)) :
    ∀ (l : List α) (s : σ), Plain (foldOut f s l)
  | [], s => .ok s
  | x :: xs, s => (hf s x).bind fun s' => Plain.foldOut hf xs s'

theorem Plain.unwrap {α : Type} (o : Option α) : Plain (Outcome.unwrap o) := by
  cases o
  · exact .panic _
  · exact .ok _

theorem Plain.unwrapParse {α : Type} (o : Option α) : Plain (Outcome.unwrapParse o) := by
  cases o
  · exact .panic _
  · exact .ok _

theorem Plain.not_err {α : Type} {x : Outcome α} (h : Plain x) (e : Err) : x ≠ .err e := by
  rcases h with ⟨a, rfl⟩ | ⟨m, rfl⟩ <;> simp

theorem Plain.not_overflow {α : Type} {x : Outcome α} (h : Plain x) : x ≠ .overflow := by
  rcases h with ⟨a, rfl⟩ | ⟨m, rfl⟩ <;> simp

section
variable {F : Type} [Arith F]

theorem plain_filterVertices (vs : List (Vertex F)) (is : List Nat) (p : VertexPred F) :
    Plain (filterVertices vs is p) := by
  unfold filterVertices
  refine (Plain.foldOut ?_ _ _).bind fun _ => .ok _
  intro s a
  unfold filterStep
  simp only
  split
  · exact .ok _
  · exact (Plain.unwrap _).bind fun _ => .ok _

theorem plain_gatherEntity (g : EntityGeo F) (bp : Option (BrushGeo F → Bool))
    (pp : Option (PlaneGeo F → Bool)) (vp : Option (VertexPred F)) : Plain (gatherEntity g bp pp vp) := by
  unfold gatherEntity
  simp only
  refine (Plain.mapOut fun b _ => ?_).bind fun _ => .ok _
  unfold gatherBrush
  simp only
  split
  · exact plain_filterVertices _ _ _
  · exact .ok _

theorem plain_textureSurface (g : EntityGeo F) (bl : TextureBlacklist) (t : Option Str) :
    Plain (textureSurface g bl t) := by
  unfold textureSurface
  refine (plain_gatherEntity _ _ _ _).bind fun ⟨vs, is⟩ => ?_
  simp only
  split
  · exact .ok _
  · exact .ok _

theorem plain_entityVisual (gd : GameData F) (bl : TextureBlacklist) (e : Entity F) (g : EntityGeo F) :
    Plain (entityVisual gd bl e g) := by
  unfold entityVisual
  split
  · split
    · split
      · exact .ok _
      · unfold brushVisual
        split
        · refine (Plain.mapOut fun t _ => plain_textureSurface g bl t).bind fun os => ?_
          simp only
          split
          · exact .ok _
          · exact .ok _
        · exact .ok _
    · exact .ok _
  · exact .panic _

theorem plain_collisionOf (ct : CollisionType) (g : EntityGeo F) : Plain (collisionOf ct g) := by
  unfold collisionOf
  split
  · exact .ok _
  · unfold concaveCollision
    refine (plain_gatherEntity _ _ _ _).bind fun ⟨vs, is⟩ => ?_
    simp only
    split
    · exact .ok _
    · exact .ok _
  · exact .ok _

theorem plain_entityCollision (gd : GameData F) (e : Entity F) (g : EntityGeo F) :
    Plain (entityCollision gd e g) := by
  unfold entityCollision
  split
  · split
    · split
      · exact .ok _
      · exact plain_collisionOf _ _
    · exact .ok _
  · exact .panic _

theorem plain_entityProperties (fgd : Forge.GameData F) (e : Entity F) : Plain (entityProperties fgd e) := by
  have int : ∀ name (m : Properties F), Plain (addInternalInteger e name m) := by
    intro name m
    unfold addInternalInteger
    split
    · exact (Plain.unwrapParse _).bind fun _ => .ok _
    · exact .ok _
  unfold entityProperties
  simp only
  split
  · exact .ok _
  · exact (int _ _).bind fun _ => (int _ _).bind fun _ => .ok _

theorem plain_buildLayer (gd : GameData F) (l : Str × List (BrushGeo F)) : Plain (buildLayer gd l) := by
  unfold buildLayer
  split
  · rename_i layer _
    refine Plain.bind ?_ fun v => (plain_collisionOf _ _).bind fun c => ?_
    · unfold layerVisual
      split
      · exact .ok _
      · refine (plain_textureSurface _ _ _).bind fun o => ?_
        cases o
        · exact .ok _
        · exact .ok _
    · simp only
      split
      · exact .ok _
      · exact .ok _
  · exact .ok _

variable [Platform]

theorem plain_geo (textures : TextureInfo) (entities : List (Entity F)) :
    Plain (Geo.run textures entities) := by
  unfold Geo.run
  refine Plain.mapOut fun e _ => ?_
  unfold Geo.buildEntity
  refine (Plain.mapOut fun b _ => ?_).bind fun _ => .ok _
  unfold Geo.buildBrush
  refine (Plain.mapOut fun p _ => ?_).bind fun _ => .ok _
  unfold Geo.buildPlane
  simp only
  refine Plain.bind ?_ fun _ => .ok _
  unfold Geo.planeVertices
  refine (Plain.mapOut fun p1 _ => ?_).bind fun _ => .ok _
  refine (Plain.mapOut fun p2 _ => ?_).bind fun _ => .ok _
  unfold Geo.buildPlaneVertex
  split
  · split
    · refine Plain.bind ?_ fun t => Plain.bind ?_ fun uv => .ok _
      · unfold Geo.vertexTangent
        split
        · unfold Geo.standardTangent
          simp only
          split
          · exact .ok _
          · exact .panic _
        · exact .ok _
      · split
        · refine Plain.bind ?_ fun _ => .ok _
          unfold Geo.vertexUV
          split
          · unfold Geo.standardUV
            simp only
            split
            · exact .ok _
            · exact .panic _
          · exact .ok _
        · exact .ok _
    · exact .ok _
  · exact .ok _

end

theorem plain_layerFilter {F : Type} (data : List (Entity F × EntityGeo F)) : Plain (LayerFilter.run data) := by
  unfold LayerFilter.run
  simp only
  split
  · exact .ok _
  · exact .panic _

section
variable {F : Type} [Arith F]

/-- The scene step never returns an error. -/
theorem buildEntity_not_err {gd : GameData F} {fgd : Forge.GameData F} {bl : TextureBlacklist}
    {data : List (Entity F × EntityGeo F)} (err : Err) : ∀ (depth : Nat) (origin : V3 F)
    (d : Entity F × EntityGeo F), buildEntity gd fgd bl data depth origin d ≠ .err err := by
  intro depth
  induction depth with
  | zero => intro o d h; unfold buildEntity at h; cases h
  | succ depth ih =>
    intro o ⟨e, g⟩ h
    unfold buildEntity at h
    rcases Outcome.bind_eq_err.1 h with h | ⟨v, _, h⟩
    · exact (plain_entityVisual _ _ _ _).not_err _ h
    rcases Outcome.bind_eq_err.1 h with h | ⟨c, _, h⟩
    · exact (plain_entityCollision _ _ _).not_err _ h
    rcases Outcome.bind_eq_err.1 h with h | ⟨ents, _, h⟩
    · have key : ∀ l : List (Entity F × EntityGeo F),
          mapOut (fun child => buildEntity gd fgd bl data depth (V3.neg g.center) child) l ≠ .err err := by
        intro l
        induction l with
        | nil => simp
        | cons x xs ihl =>
          rw [mapOut_cons]
          intro h
          rcases Outcome.bind_eq_err.1 h with h | ⟨_, _, h⟩
          · exact ih _ _ h
          rcases Outcome.bind_eq_err.1 h with h | ⟨_, _, h⟩
          · exact ihl h
          · cases h
      exact key _ h
    rcases Outcome.bind_eq_err.1 h with h | ⟨_, _, h⟩
    · exact (Plain.unwrap _).not_err _ h
    rcases Outcome.bind_eq_err.1 h with h | ⟨_, _, h⟩
    · exact (plain_entityProperties _ _).not_err _ h
    cases h

theorem mapOut_not_err {α β : Type} {f : α → Outcome β} {e : Err} (hf : ∀ a, f a ≠ .err e) :
    ∀ l : List α, mapOut f l ≠ .err e
  | [] => by simp
  | x :: xs => by
    rw [mapOut_cons]
    intro h
    rcases Outcome.bind_eq_err.1 h with h | ⟨_, _, h⟩
    · exact hf _ h
    rcases Outcome.bind_eq_err.1 h with h | ⟨_, _, h⟩
    · exact mapOut_not_err hf xs h
    · cases h

theorem scene_not_err {gd : GameData F} {fgd : Forge.GameData F} {bl : TextureBlacklist}
    {data : List (Entity F × EntityGeo F)} {depth : Nat} {layers : List (Str × List (BrushGeo F))}
    (err : Err) : Scene.run depth gd fgd bl data layers ≠ .err err := by
  unfold Scene.run
  intro h
  rcases Outcome.bind_eq_err.1 h with h | ⟨_, _, h⟩
  · exact mapOut_not_err (fun a => buildEntity_not_err _ _ _ a) _ h
  rcases Outcome.bind_eq_err.1 h with h | ⟨_, _, h⟩
  · exact mapOut_not_err (fun a => (plain_buildLayer gd a).not_err _) _ h
  rcases Outcome.bind_eq_err.1 h with h | ⟨_, _, h⟩
  · exact mapOut_not_err (fun a => buildEntity_not_err _ _ _ a) _ h
  cases h

/-! ### the pipeline -/

theorem layerFilter_ok {all data : List (Entity F × EntityGeo F)} {layers : List (Str × List (BrushGeo F))}
    (h : LayerFilter.run all = .ok (data, layers)) :
    ∃ P w g Q rest, all = P ++ (w, g) :: Q ∧ IsWorld w ∧ (∀ d ∈ P ++ Q, ¬ IsWorld d.1) ∧
      data = (w, ⟨g.center, rest⟩) :: (P ++ Q) := by
  have hc := ((C17_aborts_unless_one_worldspawn all).2.1 ⟨_, h⟩)
  rw [List.countP_eq_length_filter, List.length_eq_one_iff] at hc
  obtain ⟨⟨w, g⟩, hf⟩ := hc
  obtain ⟨P, Q, rfl, hP, hw, hQ⟩ := List.filter_eq_cons_iff.1 hf
  have hw' : IsWorld w := of_decide_eq_true hw
  have ho : ∀ d ∈ P ++ Q, ¬ IsWorld d.1 := by
    intro d hd
    rcases List.mem_append.1 hd with hd | hd
    · simpa using hP d hd
    · simpa using List.filter_eq_nil_iff.1 hQ d hd
  obtain ⟨rest, ls, h'⟩ := C17_worldspawn_first P Q w g hw' ho
  rw [h] at h'
  cases h'
  exact ⟨P, w, g, Q, rest, rfl, hw', ho, rfl⟩

variable [Platform]

/-- A successful run passes through all steps. -/
theorem run_steps {depth : Nat} {order : List (Str × List (BrushGeo F)) → List (Str × List (BrushGeo F))}
    {config : Config F} {nodes : List (Node F)} (h : Quarch.run depth order config = .ok nodes) :
    ∃ text tokens paths entities gs data layers, config.mapFile = some text ∧
      Tokenizer.run Platform.bareCR text = .ok tokens ∧ Parser.run tokens = .ok (paths, entities) ∧
      Geo.run config.textureInfo entities = .ok gs ∧
      LayerFilter.run (entities.zip gs) = .ok (data, layers) ∧
      Scene.run depth config.quarchitectGameData config.forgeGameData config.textureBlacklist data
        (order layers) = .ok nodes := by
  unfold Quarch.run at h
  split at h
  · cases h
  · rename_i text ht
    obtain ⟨tokens, h1, h⟩ := Outcome.bind_eq_ok.1 h
    obtain ⟨⟨paths, entities⟩, h2, h⟩ := Outcome.bind_eq_ok.1 h
    obtain ⟨gs, h3, h⟩ := Outcome.bind_eq_ok.1 h
    obtain ⟨⟨data, layers⟩, h4, h⟩ := Outcome.bind_eq_ok.1 h
    exact ⟨text, tokens, paths, entities, gs, data, layers, ht, h1, h2, h3, h4, h⟩

theorem geo_length {textures : TextureInfo} {entities : List (Entity F)} {gs : List (EntityGeo F)}
    (h : Geo.run textures entities = .ok gs) : gs.length = entities.length := mapOut_length h

theorem zip_map_fst {α β : Type} {l : List α} {m : List β} (h : m.length = l.length) :
    (l.zip m).map Prod.fst = l := by
  rw [List.map_fst_zip]; omega

end
end Quarch
