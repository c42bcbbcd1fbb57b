import Verif.Props.Used
import Verif.Props.DrawnExamples
import Verif.Props.WadExamples
/-
C112: names of textures in the configuration, in maps and in WAD files.
-/
set_option linter.unusedSectionVars false
namespace Quarch
open Quarch.Spec Scene Wad

namespace Spec
/-- The letters A to Z. -/
def asciiCapitals : Str := str! "ABCDEFGHIJKLMNOPQRSTUVWXYZ"

/-- Some word has this lower-case form. -/
def Lowered [Platform] (t : Str) : Prop := ∃ w, Platform.lowercase w = t

/-- The lower-case form of a word has no capital letter. -/
def NoCapitals [Platform] : Prop := ∀ w, ∀ c ∈ Platform.lowercase w, c ∉ asciiCapitals

/-- Words of ASCII characters are lowered letter by letter. -/
def LowersAscii [Platform] : Prop :=
  ∀ w : Str, (∀ c ∈ w, c.toNat < 128) → Platform.lowercase w = w.map Char.toLower

/-- The configuration with another texture info and another blacklist. -/
def withTextures {F : Type} (config : Config F) (info : TextureInfo) (bl : TextureBlacklist) : Config F :=
  { config with textureInfo := info, textureBlacklist := bl }
end Spec

section
variable {F : Type} [Arith F] [Platform]

/-- The texture of a loaded face is the lower-case form of a word. -/
theorem loaded_lowered {text : Str} {entities : List (Entity F)} (hl : LoadsAs text entities) {e : Entity F}
    (he : e ∈ entities) {b : Brush F} (hb : b ∈ e.brushes) {p : BrushPlane F} (hp : p ∈ b.planes) :
    Lowered p.texture := by
  obtain ⟨tokens, paths, _, h2⟩ := hl
  obtain ⟨f, _, hf⟩ := (C09_loads_iff_grammar tokens entities).1 ⟨paths, h2⟩
  obtain ⟨items, _, hd⟩ := forall₂_right hf he
  obtain ⟨faces, _, hb'⟩ := forall₂_right hd.2 hb
  obtain ⟨line, _, _, ws, _, _, _, h⟩ := forall₂_right hb' hp
  have := h.2.2.2.1
  rcases hw : (ws.map Prod.fst)[15]? with _ | w
  · rw [hw] at this; cases this
  · rw [hw] at this
    exact ⟨w, by simpa using this⟩

theorem bind_fails {α β : Type} {x : Outcome α} (hx : ∀ a, x ≠ .ok a) {f g : α → Outcome β} :
    x.bind f = x.bind g := by
  cases x with
  | ok a => exact absurd rfl (hx a)
  | err => rfl
  | panic => rfl
  | overflow => rfl

theorem run_none {depth : Nat} {order : List (Str × List (BrushGeo F)) → List (Str × List (BrushGeo F))}
    {config : Config F} (h : config.mapFile = none) : Quarch.run depth order config = .err .io := by
  unfold Quarch.run; rw [h]

theorem run_some {depth : Nat} {order : List (Str × List (BrushGeo F)) → List (Str × List (BrushGeo F))}
    {config : Config F} {text : Str} (h : config.mapFile = some text) : Quarch.run depth order config =
    (Tokenizer.run Platform.bareCR text).bind fun tokens =>
    (Parser.run tokens).bind fun (_, entities) =>
    (Geo.run config.textureInfo entities).bind fun geometry =>
    (LayerFilter.run (entities.zip geometry)).bind fun (entityData, layers) =>
    Scene.run depth config.quarchitectGameData config.forgeGameData config.textureBlacklist entityData
      (order layers) := by
  unfold Quarch.run; rw [h]

/-- C112 Sizes and blacklist entries of names that are not the lower-case form of a word have no effect, whether the
map loads or not. -/
theorem C112_unreachable (depth : Nat)
    (order : List (Str × List (BrushGeo F)) → List (Str × List (BrushGeo F))) (horder : ∀ l, (order l).Perm l)
    (config : Config F) (info : TextureInfo) (bl : TextureBlacklist)
    (hi : ∀ t, Lowered t → config.textureInfo t = info t)
    (hb : ∀ t, Lowered t → (t ∈ config.textureBlacklist.brush ↔ t ∈ bl.brush))
    (hp : ∀ t, Lowered t → (t ∈ config.textureBlacklist.plane ↔ t ∈ bl.plane)) :
    Quarch.run depth order config = Quarch.run depth order (withTextures config info bl) := by
  rcases hm : config.mapFile with _ | text
  · rw [run_none hm, run_none (config := withTextures config info bl) hm]
  · by_cases hl : ∃ entities : List (Entity F), LoadsAs text entities
    · obtain ⟨entities, hl⟩ := hl
      exact C98_only_what_is_used depth order horder config (withTextures config info bl) text hm hm entities hl
        ⟨fun e he b hb p hp => hi _ (loaded_lowered hl he hb hp),
          fun e he b hb' p hp => hb _ (loaded_lowered hl he hb' hp),
          fun e he b hb p hp' => hp _ (loaded_lowered hl he hb hp'), fun e _ name _ =>
            ⟨fun d hd => ⟨d, hd, sameKind_refl d.data⟩, fun d hd => ⟨d, hd⟩⟩, fun e _ =>
            ⟨fun d hd => ⟨d, hd, rfl⟩, fun d hd => ⟨d, hd⟩⟩, fun _ _ => rfl⟩
    · rw [run_some hm, run_some (config := withTextures config info bl) hm]
      rcases ht : Tokenizer.run Platform.bareCR text with tokens | _ | _ | _
      · rw [Outcome.ok_bind, Outcome.ok_bind]
        rcases hpr : Parser.run (F := F) tokens with ⟨paths, entities⟩ | _ | _ | _
        · exact absurd ⟨entities, tokens, paths, ht, hpr⟩ hl
        all_goals exact bind_fails fun _ h => by cases h
      all_goals exact bind_fails fun _ h => by cases h

/-- C112 If lower-case forms have no capital letters: names with a capital letter can be added to the blacklists, and
be given any size or none, without any effect. -/
theorem C112_capitals (hlow : NoCapitals) (depth : Nat)
    (order : List (Str × List (BrushGeo F)) → List (Str × List (BrushGeo F))) (horder : ∀ l, (order l).Perm l)
    (config : Config F) (names : List Str) (hn : ∀ t ∈ names, ∃ c ∈ t, c ∈ asciiCapitals)
    (size : Str → Option Texture) :
    Quarch.run depth order (withTextures config (fun t => if t ∈ names then size t else config.textureInfo t)
      ⟨config.textureBlacklist.brush ++ names, config.textureBlacklist.plane ++ names⟩) =
      Quarch.run depth order config := by
  have key : ∀ t, Lowered t → t ∉ names := by
    rintro _ ⟨w, rfl⟩ hm
    obtain ⟨c, hc, hcap⟩ := hn _ hm
    exact hlow w c hc hcap
  symm
  refine C112_unreachable depth order horder config _ _ (fun t ht => ?_) (fun t ht => ?_) fun t ht => ?_
  · simp [key t ht]
  · simp [key t ht]
  · simp [key t ht]
end

theorem lower_ascii : ∀ n < 128, lower (Char.ofNat n) = Char.toLower (Char.ofNat n) := by decide

theorem lower_eq_toLower {c : Char} (h : c.toNat < 128) : lower c = Char.toLower c := by
  have := lower_ascii c.toNat h
  rwa [Char.ofNat_toNat] at this

section
variable {F : Type} [Arith F] [Platform]

/-- C112 A face finds the texture of a WAD file by its name in any letter case: if the texture info has the textures
read from the file, by the names they were read with, then the face has a known texture and it is that one, with the
size stored in the file. -/
theorem C112_wad_sizes (hlow : LowersAscii) (checks : Bool) (wt : Wad.WadType) (ls : List Lump) (gap trailer : Bytes)
    (hl : ∀ l ∈ ls, l.Good) (hb : (writeWad wt ls gap trailer).length < 2 ^ 32)
    (sched : Nat → List Nat) (hs : ∀ n, Spec.Complete n (sched n)) (ts : List Wad.TextureIndexed)
    (hr : Wad.readTextures checks (some (writeWad wt ls gap trailer)) none 1 sched = .ok ts)
    (info : TextureInfo)
    (hinfo : ∀ t ∈ ts, info t.mipTexture.name = some ⟨t.mipTexture.width, t.mipTexture.height⟩)
    (l : Lump) (hlm : l ∈ ls) (name : Str) (hname : NameIn l.field name) (ha : ∀ c ∈ name, c.toNat < 128)
    (ws : List Str) (p : BrushPlane F) (hp : BrushPlane.ofWords ws = .ok p) (w : Str) (hw : ws[15]? = some w)
    (hwa : ∀ c ∈ w, c.toNat < 128) (hsame : w.map Char.toLower = name.map Char.toLower) :
    info p.texture = some ⟨l.width, l.height⟩ ∧ knownTexture info p = some (name.map Char.toLower) := by
  obtain ⟨ts', h1, h2⟩ := C54_round_trip checks wt ls gap trailer hl hb sched hs
  rw [hr] at h1; cases h1
  obtain ⟨t, ht, ⟨name', hn', hmt⟩, _⟩ := forall₂_left h2 hlm
  rw [nameIn_iff] at hname hn'
  subst hn'
  rw [← hname] at hmt
  have hface := ((ofWords_ok_iff ws p).1 hp).2.2.2.1
  rw [hw, Option.map_some, hlow w hwa, Option.some.injEq, hsame] at hface
  have hlower : name.map lower = name.map Char.toLower := List.map_congr_left fun c hc => lower_eq_toLower (ha c hc)
  have hi := hinfo t ht
  rw [hmt, hlower] at hi
  have h3 : info p.texture = some ⟨l.width, l.height⟩ := by rw [← hface]; exact hi
  exact ⟨h3, by unfold knownTexture; rw [h3, hface]; rfl⟩
end

/-! ### Examples -/
section
attribute [local instance] refPlatform

theorem refPlatform_ascii : LowersAscii := fun _ _ => rfl

theorem toLower_small : ∀ n < 128, Char.toLower (Char.ofNat n) ∉ asciiCapitals := by decide

theorem toLower_capital (c : Char) : Char.toLower c ∉ asciiCapitals := by
  by_cases hc : c.toNat < 128
  · have := toLower_small c.toNat hc
    rwa [Char.ofNat_toNat] at this
  · have hlist : asciiCapitals.all (fun d => decide (d.toNat < 128)) = true := by decide
    intro h
    have h1 := of_decide_eq_true (List.all_eq_true.1 hlist _ h)
    unfold Char.toLower at h1
    split at h1
    · rename_i h2
      have : c.toNat ≤ 90 := h2.2
      omega
    · exact hc h1

theorem refPlatform_noCapitals : NoCapitals := by
  intro w c hc
  obtain ⟨d, _, rfl⟩ := List.mem_map.1 hc
  exact toLower_capital d

section
attribute [local instance] cubeText

/-- C112 for the cube: `BRICK` on the blacklists hides nothing, although its faces are hidden by `brick`. -/
example : ∃ nodes, Quarch.run 1 id (cubeConfig ⟨[str! "BRICK"], [str! "BRICK"]⟩) = .ok nodes ∧
    Quarch.run 1 id (cubeConfig ⟨[], []⟩) = .ok nodes ∧
    Quarch.run 1 id (cubeConfig ⟨[], [str! "brick"]⟩) ≠ .ok nodes := by
  obtain ⟨nodes, h⟩ := cube_run ⟨[], []⟩
  refine ⟨nodes, ?_, h, fun h' => ?_⟩
  · rw [← h]
    exact (C112_unreachable 1 id (fun _ => .refl _) (cubeConfig ⟨[], []⟩) (cubeConfig ⟨[], []⟩).textureInfo
      ⟨[str! "BRICK"], [str! "BRICK"]⟩ (fun _ _ => rfl)
      (fun t ht => by
        obtain ⟨w, rfl⟩ := ht
        refine ⟨fun h => absurd h List.not_mem_nil, fun h => ?_⟩
        have := List.mem_singleton.1 h
        exact absurd (by decide) (refPlatform_noCapitals w 'B' (by rw [this]; decide)))
      (fun t ht => by
        obtain ⟨w, rfl⟩ := ht
        refine ⟨fun h => absurd h List.not_mem_nil, fun h => ?_⟩
        have := List.mem_singleton.1 h
        exact absurd (by decide) (refPlatform_noCapitals w 'B' (by rw [this]; decide)))).symm
  · have hd := (C87_everything 1 id (fun _ => .refl _) _ nodes h cubeMap rfl [cubeEntity] cube_loads
      (fun e he br hbr => by
        cases List.mem_singleton.1 he
        cases List.mem_singleton.1 hbr
        exact Cube.proper)
      (fun e he => by cases List.mem_singleton.1 he; exact .world rfl)
      (fun e he br hbr p hp => by
        cases List.mem_singleton.1 he
        cases List.mem_singleton.1 hbr
        exact (cube_shown _ p hp).2 ⟨by simp, by simp⟩) ⟨1 / 2, 1 / 3, 1⟩).2 ⟨cubeEntity, by simp, ⟨Cube.planes⟩,
        List.mem_singleton.2 rfl, by rw [Cube.inside]; norm_num, Cube.zp, by simp [Cube.planes],
        by norm_num [OnPlane, Cube.face, Cube.zp, rawNormal, dotR, crossR, subR]⟩
    obtain ⟨e, he, _, br, hbr, p, hp, hs, _⟩ := (C87_picture 1 id (fun _ => .refl _) _ nodes h' cubeMap rfl [cubeEntity]
      cube_loads cube_proper _).1 hd
    cases List.mem_singleton.1 he
    cases List.mem_singleton.1 hbr
    have := ((cube_shown _ p hp).1 hs)
    revert this
    decide

/-- C112 for the cube: `BRICK` on the blacklists and with a size. -/
example : ∃ nodes, Quarch.run 1 id (withTextures (cubeConfig ⟨[], []⟩)
      (fun t => if t ∈ [str! "BRICK"] then some ⟨1, 1⟩ else (cubeConfig ⟨[], []⟩).textureInfo t)
      ⟨[] ++ [str! "BRICK"], [] ++ [str! "BRICK"]⟩) = .ok nodes := by
  obtain ⟨nodes, h⟩ := cube_run ⟨[], []⟩
  exact ⟨nodes, (C112_capitals refPlatform_noCapitals 1 id (fun _ => .refl _) (cubeConfig ⟨[], []⟩) [str! "BRICK"]
    (by decide) (fun _ => some ⟨1, 1⟩)).trans h⟩
end

section
attribute [local instance] intArith

/-- A face with the texture name in other letter case. -/
def skyWords : List Str :=
  [str! "(", str! "0", str! "0", str! "0", str! ")", str! "(", str! "0", str! "1", str! "0", str! ")",
    str! "(", str! "1", str! "0", str! "0", str! ")", str! "sKY1", str! "0", str! "0", str! "0", str! "1", str! "1"]

/-- C112: the face finds the texture of the WAD file. -/
example : ∃ p : BrushPlane Int, BrushPlane.ofWords skyWords = .ok p ∧
    ∀ info : TextureInfo, info (str! "sky1") = some ⟨4, 4⟩ → info p.texture = some ⟨skyLump.width, skyLump.height⟩ := by
  refine ⟨_, rfl, fun info hi => ?_⟩
  have hr := sky2_reads true backwards backwards_complete
  refine (C112_wad_sizes refPlatform_ascii true .wad2 [skyLump, skyLump] [1, 2] [3] sky_good
    (by have := sky2_length; unfold sky2 at this; rw [this]; decide) backwards backwards_complete _ hr info ?_ skyLump
    (by simp) (str! "Sky1") ?_ (by decide) skyWords _ rfl (str! "sKY1") rfl (by decide) (by decide)).1
  · intro t ht
    simp only [List.mem_cons, List.not_mem_nil, or_false, or_self] at ht
    subst ht
    exact hi
  · rw [nameIn_iff]; decide
end
end
end Quarch
