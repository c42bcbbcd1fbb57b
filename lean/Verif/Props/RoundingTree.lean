import Verif.Props.TreeExamples
import Verif.Props.RoundingExamples
/-
C86: positions of nested entities with rounding.
-/
set_option linter.unusedSectionVars false
namespace Quarch
namespace Spec
variable {F : Type}

/-- The origins on a path from the top level to a node, that of the node first. -/
inductive PathTo (forest : List (Node F)) : List (V3 F) → Node F → Prop
  | top {n : Node F} : n ∈ forest → PathTo forest [originOf n] n
  | child {os : List (V3 F)} {o : V3 F} {a : Actor F} {cs : List (Node F)} {n : Node F} :
      PathTo forest os (.actor o a cs) → n ∈ cs → PathTo forest (originOf n :: os) n

/-- The origins of a path added up from the top level on, with the arithmetic of the program. -/
def addUp [Arith F] : List (V3 F) → V3 F
  | [] => V3.zero
  | [o] => o
  | o :: os => V3.add (addUp os) o

end Spec

open Spec Scene Rounding

section
variable {F : Type} [Arith F] [Rounding F]

/-- The origin of a child, one coordinate. -/
theorem rel_err {c d : F} {M : ℝ} (hM' : M ≤ 2 ^ 80) (hc : Fin c) (hd : Fin d) (wc : |val c| ≤ M)
    (wd : |val d| ≤ M) : Fin (Arith.add (Arith.neg c) d) ∧
    |val (Arith.add (Arith.neg c) d) - (val d - val c)| ≤ 2 * u * M := by
  have up : 0 < u := by unfold u; norm_num
  have hs : |val (Arith.neg c) + val d| ≤ 2 * M := by
    rw [neg_val]
    refine (abs_add_le _ _).trans ?_
    rw [abs_neg]; linarith
  have hf : Fin (Arith.add (Arith.neg c) d) := add_ok _ _ ((neg_fin c).2 hc) hd (hs.trans (by
    unfold large; linarith [show (2 : ℝ) * 2 ^ 80 ≤ 2 ^ 120 by norm_num]))
  refine ⟨hf, ?_⟩
  have h := add_val _ _ hf
  have h2 := mul_le_mul_of_nonneg_left hs up.le
  rw [neg_val] at h h2
  rw [show val d - val c = -val c + val d by ring]
  linarith

/-- The position of a child from that of its parent, one coordinate. -/
theorem place_err {p o c d : F} {M k : ℝ} (hM : 1 ≤ M) (hM' : M ≤ 2 ^ 80) (hk : k ≤ 2 ^ 20) (hp : Fin p)
    (ho : Fin o) (wd : |val d| ≤ M) (ep : |val p - val c| ≤ 4 * k * u * M)
    (eo : |val o - (val d - val c)| ≤ 2 * u * M) :
    Fin (Arith.add p o) ∧ |val (Arith.add p o) - val d| ≤ 4 * (k + 1) * u * M := by
  have up : 0 < u := by unfold u; norm_num
  have e : |val p + val o - val d| ≤ 4 * k * u * M + 2 * u * M := by
    rw [show val p + val o - val d = (val p - val c) + (val o - (val d - val c)) by ring]
    exact (abs_add_le _ _).trans (add_le_add ep eo)
  have ku : k * u ≤ 1 / 16 := by
    have := mul_le_mul_of_nonneg_right hk up.le
    have : (2 : ℝ) ^ 20 * u = 1 / 16 := by unfold u; norm_num
    linarith
  have u1 : u ≤ 1 / 1000 := by unfold u; norm_num
  have hs : |val p + val o| ≤ 13 / 10 * M := by
    have h1 : |val p + val o| ≤ |val p + val o - val d| + |val d| := by
      have := abs_add_le (val p + val o - val d) (val d)
      rwa [sub_add_cancel] at this
    have h2 := mul_le_mul_of_nonneg_right ku (by linarith : 0 ≤ M)
    have h3 := mul_le_mul_of_nonneg_right u1 (by linarith : 0 ≤ M)
    linarith
  have hf : Fin (Arith.add p o) := add_ok _ _ hp ho (hs.trans (by
    unfold large; linarith [show (13 / 10 : ℝ) * 2 ^ 80 ≤ 2 ^ 120 by norm_num]))
  refine ⟨hf, ?_⟩
  have h := add_val _ _ hf
  have h2 := mul_le_mul_of_nonneg_left hs up.le
  have h3 : |val (Arith.add p o) - val d| ≤ |val (Arith.add p o) - (val p + val o)| + |val p + val o - val d| := by
    have := abs_add_le (val (Arith.add p o) - (val p + val o)) (val p + val o - val d)
    rwa [sub_add_sub_cancel] at this
  have : 0 ≤ u * M := by positivity
  linarith

theorem top_err {c : F} {M : ℝ} (hM' : M ≤ 2 ^ 80) (hc : Fin c) (wc : |val c| ≤ M) :
    Fin (Arith.add Arith.zero c) ∧ |val (Arith.add Arith.zero c) - val c| ≤ u * M := by
  have up : 0 < u := by unfold u; norm_num
  have hs : |val (Arith.zero : F) + val c| ≤ M := by rw [zero_val, zero_add]; exact wc
  have hf : Fin (Arith.add Arith.zero c) := add_ok _ _ zero_fin hc (hs.trans (by
    unfold large; linarith [show (2 : ℝ) ^ 80 ≤ 2 ^ 120 by norm_num]))
  refine ⟨hf, ?_⟩
  have h := add_val _ _ hf
  have h2 := mul_le_mul_of_nonneg_left hs up.le
  rw [zero_val, zero_add] at h h2
  linarith

/-- What is known of the path to an entity with the given centre. -/
def PathOk (M : ℝ) (os : List (V3 F)) (c : V3 F) : Prop :=
  os ≠ [] ∧ Within (2 * os.length * u * M) (subR (sumR (os.map valV)) (valV c)) ∧
  (os.length ≤ 2 ^ 20 → FinV (addUp os) ∧ Within (4 * os.length * u * M) (subR (valV (addUp os)) (valV c)))

theorem pathOk_top {M : ℝ} (hM : 1 ≤ M) (hM' : M ≤ 2 ^ 80) {c : V3 F} (hc : FinV c) (wc : Within M (valV c)) :
    PathOk M [V3.add V3.zero c] c := by
  have up : 0 < u := by unfold u; norm_num
  obtain ⟨fx, ex⟩ := top_err hM' hc.1 wc.1
  obtain ⟨fy, ey⟩ := top_err hM' hc.2.1 wc.2.1
  obtain ⟨fz, ez⟩ := top_err hM' hc.2.2 wc.2.2
  have : 0 ≤ u * M := by positivity
  have h1 : ∀ {x : ℝ}, |x| ≤ u * M → |x| ≤ 2 * ([V3.add V3.zero c].length : ℕ) * u * M := fun h => by
    simp only [List.length_singleton]; push_cast; linarith
  have h2 : ∀ {x : ℝ}, |x| ≤ u * M → |x| ≤ 4 * ([V3.add V3.zero c].length : ℕ) * u * M := fun h => by
    simp only [List.length_singleton]; push_cast; linarith
  refine ⟨by simp, ⟨?_, ?_, ?_⟩, fun _ => ⟨⟨fx, fy, fz⟩, h2 ex, h2 ey, h2 ez⟩⟩
  · apply h1; simpa [sumR, subR, valV, V3.add, V3.zero] using ex
  · apply h1; simpa [sumR, subR, valV, V3.add, V3.zero] using ey
  · apply h1; simpa [sumR, subR, valV, V3.add, V3.zero] using ez

theorem pathOk_step {M : ℝ} (hM : 1 ≤ M) (hM' : M ≤ 2 ^ 80) {c d : V3 F} {os : List (V3 F)} (hc : FinV c)
    (wc : Within M (valV c)) (hd : FinV d) (wd : Within M (valV d)) (h : PathOk M os c) :
    PathOk M (V3.add (V3.neg c) d :: os) d := by
  obtain ⟨hne, he, ha⟩ := h
  obtain ⟨fx, ex⟩ := rel_err hM' hc.1 hd.1 wc.1 wd.1
  obtain ⟨fy, ey⟩ := rel_err hM' hc.2.1 hd.2.1 wc.2.1 wd.2.1
  obtain ⟨fz, ez⟩ := rel_err hM' hc.2.2 hd.2.2 wc.2.2 wd.2.2
  have add : ∀ {s c' d' r : ℝ}, |s - c'| ≤ 2 * (os.length : ℝ) * u * M → |r - (d' - c')| ≤ 2 * u * M →
      |r + s - d'| ≤ 2 * ((V3.add (V3.neg c) d :: os).length : ℕ) * u * M := fun {s c' d' r} h1 h2 => by
    rw [show r + s - d' = (s - c') + (r - (d' - c')) by ring, List.length_cons]
    push_cast
    refine (abs_add_le _ _).trans ?_
    linarith
  refine ⟨by simp, ⟨?_, ?_, ?_⟩, ?_⟩
  · have := add he.1 ex
    simpa [sumR, subR, valV, V3.add, V3.neg] using this
  · have := add he.2.1 ey
    simpa [sumR, subR, valV, V3.add, V3.neg] using this
  · have := add he.2.2 ez
    simpa [sumR, subR, valV, V3.add, V3.neg] using this
  · intro hl
    rw [List.length_cons] at hl
    obtain ⟨fp, wp⟩ := ha (by omega)
    have hk : (os.length : ℝ) ≤ 2 ^ 20 := by exact_mod_cast (by omega : os.length ≤ 2 ^ 20)
    have e : addUp (V3.add (V3.neg c) d :: os) = V3.add (addUp os) (V3.add (V3.neg c) d) := by
      cases os with
      | nil => exact absurd rfl hne
      | cons _ _ => rfl
    rw [e]
    obtain ⟨gx, kx⟩ := place_err hM hM' hk fp.1 fx wd.1 wp.1 ex
    obtain ⟨gy, ky⟩ := place_err hM hM' hk fp.2.1 fy wd.2.1 wp.2.1 ey
    obtain ⟨gz, kz⟩ := place_err hM hM' hk fp.2.2 fz wd.2.2 wp.2.2 ez
    refine ⟨⟨gx, gy, gz⟩, ?_⟩
    rw [List.length_cons]
    push_cast
    exact ⟨kx, ky, kz⟩

variable [Platform]

/-- Paths inside a forest of entity nodes. -/
theorem path_build {gd : GameData F} {fgd : Forge.GameData F} {bl : TextureBlacklist} {M : ℝ} (hM : 1 ≤ M)
    (hM' : M ≤ 2 ^ 80) {data roots : List (Entity F × EntityGeo F)} (hroots : ∀ d ∈ roots, d ∈ data)
    (hc : ∀ d ∈ data, FinV d.2.center ∧ Within M (valV d.2.center)) {depth : Nat} {nodes : List (Node F)}
    (h : List.Forall₂ (fun d n => buildEntity gd fgd bl data depth V3.zero d = .ok n) roots nodes)
    {os : List (V3 F)} {n : Node F} (hr : PathTo nodes os n) :
    ∀ o a cs, n = .actor o a cs →
    ∃ depth' origin', ∃ d ∈ data, buildEntity gd fgd bl data depth' origin' d = .ok n ∧ PathOk M os d.2.center := by
  induction hr with
  | top hn =>
    rintro o a cs rfl
    obtain ⟨d, hd, hb⟩ := forall₂_right h hn
    refine ⟨_, _, d, hroots d hd, hb, ?_⟩
    obtain ⟨a', cs', e, _⟩ := buildEntity_actor hb
    cases e
    exact pathOk_top hM hM' (hc d (hroots d hd)).1 (hc d (hroots d hd)).2
  | @child os o a cs n _ hn ih =>
    rintro o' a' cs' rfl
    obtain ⟨depth', origin', ⟨e, g⟩, hd, hb, hok⟩ := ih _ _ _ rfl
    obtain ⟨d', v, c, ents, name, props, _, h1, h2, h3, _, _, e1⟩ := buildEntity_ok hb
    cases e1
    rcases List.mem_append.1 hn with hn | hn
    · rcases List.mem_append.1 hn with hn | hn
      · cases (visualChildren_mem hn).1
      · cases (collisionChildren_mem hn).1
    · obtain ⟨d2, hd2, hb2⟩ := forall₂_right h3 hn
      refine ⟨_, _, d2, members_mem hd2, hb2, ?_⟩
      obtain ⟨a3, cs3, e3, _⟩ := buildEntity_actor hb2
      cases e3
      have k2 := hc d2 (members_mem hd2)
      exact pathOk_step hM hM' (hc _ hd).1 (hc _ hd).2 k2.1 k2.2 hok

/-- C86: with rounding, if the centres of all entities are finite and at most `M`, the `n` origins on the path to an
entity node add up to the centre of its entity up to `2 n u M` when added exactly, and up to `4 n u M` when added from
the top level on with rounding (`n ≤ 2 ^ 20`). The paths start at the worldspawn node or at an ungrouped entity. -/
theorem C86_position (depth : Nat)
    (order : List (Str × List (BrushGeo F)) → List (Str × List (BrushGeo F))) (config : Config F) (nodes : List (Node F))
    (h : Quarch.run depth order config = .ok nodes) (M : ℝ) (hM : 1 ≤ M) (hM' : M ≤ 2 ^ 80)
    (hc : ∀ (text : Str) (entities : List (Entity F)), config.mapFile = some text → LoadsAs text entities → ∀ e ∈ entities, ∀ g,
      Geo.buildEntity config.textureInfo e = .ok g → FinV g.center ∧ Within M (valV g.center)) :
    ∃ text pre w post wn ls es, config.mapFile = some text ∧ LoadsAs text (pre ++ w :: post) ∧
      IsWorld w ∧ (∀ e ∈ pre ++ post, ¬ IsWorld e) ∧ nodes = wn :: (ls ++ es) ∧
      (∀ n ∈ ls, ∃ a cs, n = Node.actor V3.zero a cs ∧ ∀ c ∈ cs, ∀ o a cs', c ≠ Node.actor o a cs') ∧
      ∀ os o a cs, PathTo (wn :: es) os (.actor o a cs) →
        ∃ e ∈ pre ++ w :: post, ∃ g, Geo.buildEntity config.textureInfo e = .ok g ∧
          Represents (pre ++ post) e (.actor o a cs) ∧
          Within (2 * os.length * u * M) (subR (sumR (os.map valV)) (valV g.center)) ∧
          (os.length ≤ 2 ^ 20 → FinV (addUp os) ∧
            Within (4 * os.length * u * M) (subR (valV (addUp os)) (valV g.center))) := by
  obtain ⟨text, P, w, g, Q, rest, layers, wn, ls, es, h1, h2, hw, ho, hgeo, hlf, e1, hwn, hls, hes⟩ := run_parts h
  have hcen : ∀ d ∈ P ++ (w, g) :: Q, FinV d.2.center ∧ Within M (valV d.2.center) := fun d hd =>
    hc text _ h1 h2 d.1 (List.mem_map_of_mem hd) d.2 (hgeo d hd)
  refine ⟨text, P.map (·.1), w, Q.map (·.1), wn, ls.filterMap id, es, h1, ?_, hw, ?_, e1, ?_, ?_⟩
  · simpa using h2
  · intro e he
    rw [← List.map_append] at he
    obtain ⟨d, hd, rfl⟩ := List.mem_map.1 he
    exact ho d hd
  · intro n hn
    obtain ⟨o, ho', e⟩ := List.mem_filterMap.1 hn
    simp only [id_eq] at e
    subst e
    obtain ⟨l, hmem, hb⟩ := forall₂_right hls ho'
    obtain ⟨layer, v, c, hf, _, _, _, rfl⟩ := (buildLayer_ok hb).2 n rfl
    refine ⟨_, _, rfl, ?_⟩
    intro x hx o a cs' he
    subst he
    rcases List.mem_append.1 hx with hx | hx
    · cases (visualChildren_mem hx).1
    · cases (collisionChildren_mem hx).1
  · intro os o a cs hr
    have hall : List.Forall₂ (fun d n => buildEntity config.quarchitectGameData config.forgeGameData
        config.textureBlacklist ((w, ⟨g.center, rest⟩) :: (P ++ Q)) depth V3.zero d = .ok n)
        ((w, ⟨g.center, rest⟩) :: ((P ++ Q).filter fun d => (groupOf d.1).isNone)) (wn :: es) := .cons hwn hes
    obtain ⟨depth', origin', d, hd, hb, hok⟩ := path_build hM hM' (by
      intro d hd
      rcases List.mem_cons.1 hd with rfl | hd
      · simp
      · exact List.mem_cons_of_mem _ (List.mem_filter.1 hd).1) (by
      intro d hd
      rcases List.mem_cons.1 hd with rfl | hd
      · exact hcen (w, g) (by simp)
      · refine hcen d ?_
        rcases List.mem_append.1 hd with hd | hd
        · exact List.mem_append_left _ hd
        · exact List.mem_append_right _ (List.mem_cons_of_mem _ hd)) hall hr _ _ _ rfl
    have hrep := represents_of_build hb
    rw [List.drop_succ_cons, List.drop_zero, List.map_append] at hrep
    rcases List.mem_cons.1 hd with rfl | hd
    · exact ⟨w, by simp, g, hgeo (w, g) (by simp), hrep, hok.2⟩
    · refine ⟨d.1, ?_, d.2, hgeo d ?_, hrep, hok.2⟩
      · rcases List.mem_append.1 hd with hd | hd
        · exact List.mem_append_left _ (List.mem_map_of_mem hd)
        · exact List.mem_append_right _ (List.mem_cons_of_mem _ (List.mem_map_of_mem hd))
      · rcases List.mem_append.1 hd with hd | hd
        · exact List.mem_append_left _ hd
        · exact List.mem_append_right _ (List.mem_cons_of_mem _ hd)

end

/-! ### in single precision -/

section
/-- A group with a door in it. -/
def doorMap : Str :=
  str! "{\n\"classname\" \"worldspawn\"\n}\n{\n\"classname\" \"group\"\n\"_tb_id\" \"1\"\n\"origin\" \"5 6 7\"\n}\n{\n\"classname\" \"door\"\n\"_tb_group\" \"1\"\n\"origin\" \"1 2 3\"\n}\n"

def doorProps : List (List (Str × Str)) :=
  [[(str! "classname", str! "worldspawn")],
   [(str! "classname", str! "group"), (str! "_tb_id", str! "1"), (str! "origin", str! "5 6 7")],
   [(str! "classname", str! "door"), (str! "_tb_group", str! "1"), (str! "origin", str! "1 2 3")]]

set_option maxRecDepth 20000 in
theorem door_tokens (b : Bool) : Tokenizer.run b doorMap = .ok (toksOf doorProps) := by
  cases b <;> decide

/-- A library that reads digits. -/
@[instance_reducible] noncomputable def digitLib : F32Lib where
  recip := false
  parse w := match w with
    | [c] => some (F32.ofAbs false ((c.toNat - 48 : Nat) : ℝ))
    | _ => none
  disp _ := []
  cos a := a
  atan2 a _ := a
  rotate a _ _ := a
  rotate2 _ a := a

attribute [local instance] digitLib
variable [Platform]
open F32

theorem digit_is (c : Char) (n : Nat) (h : c.toNat - 48 = n) (hn : n < 10) :
    Is ((Arith.parse [c]).getD Arith.zero : F32) n := by
  subst h
  have hs : Int.natAbs ((c.toNat - 48 : Nat) : Int) < 2 ^ 24 := by omega
  obtain ⟨h1, h2⟩ := is_ofAbs (s := false) (n := c.toNat - 48) (by omega) (x := ((c.toNat - 48 : Nat) : ℝ)) rfl
  refine ⟨h1, ?_, hs⟩
  have : F32.val ((Arith.parse [c]).getD Arith.zero : F32) = F32.sv false ((c.toNat - 48 : Nat) : ℝ) := h2
  rw [this]; simp [F32.sv]

theorem at567 : IsV (Geo.parseOrigin (str! "5 6 7") : V3 F32) 5 6 7 :=
  ⟨digit_is '5' 5 rfl (by omega), digit_is '6' 6 rfl (by omega), digit_is '7' 7 rfl (by omega)⟩

theorem at123 : IsV (Geo.parseOrigin (str! "1 2 3") : V3 F32) 1 2 3 :=
  ⟨digit_is '1' 1 rfl (by omega), digit_is '2' 2 rfl (by omega), digit_is '3' 3 rfl (by omega)⟩

theorem atZero : IsV (Geo.mean [] : V3 F32) 0 0 0 := by
  have hz : IsV (V3.zero : V3 F32) 0 0 0 := ⟨is_zero, is_zero, is_zero⟩
  have hn : Is (Arith.ofNat (max ([] : List (V3 F32)).length 1) : F32) 1 := by
    obtain ⟨h1, h2⟩ := is_ofAbs (s := false) (n := 1) (by norm_num) (x := ((1 : Nat) : ℝ)) rfl
    refine ⟨h1, ?_, by norm_num⟩
    have : F32.val (Arith.ofNat (max ([] : List (V3 F32)).length 1) : F32) = F32.sv false ((1 : Nat) : ℝ) := h2
    rw [this]; simp [F32.sv]
  exact isV_sdiv hz hn (by norm_num) (by norm_num) (by norm_num) (by norm_num)

noncomputable def doorConfig : Config F32 := ⟨some doorMap, Map.empty, ⟨[], []⟩, ⟨[], [], []⟩, ⟨[], []⟩⟩

theorem door_run : ∃ wn a1 a2, Quarch.run 2 id doorConfig = .ok
    [wn, .actor (V3.add V3.zero (Geo.parseOrigin (str! "5 6 7"))) a1
      [.actor (V3.add (V3.neg (Geo.parseOrigin (str! "5 6 7"))) (Geo.parseOrigin (str! "1 2 3"))) a2 []]] := by
  unfold Quarch.run
  simp only [doorConfig, door_tokens, Outcome.ok_bind]
  exact ⟨_, _, _, rfl⟩

theorem door_parse : ∃ paths, Parser.run (F := F32) (toksOf doorProps) = .ok (paths, doorProps.map (pointEntity F32)) :=
  ⟨_, rfl⟩

/-- The centres of the entities in the example. -/
theorem door_centers (text : Str) (entities : List (Entity F32)) (h1 : doorConfig.mapFile = some text)
    (h2 : LoadsAs text entities) (e : Entity F32) (he : e ∈ entities) (g : EntityGeo F32)
    (hg : Geo.buildEntity doorConfig.textureInfo e = .ok g) : FinV g.center ∧ Within 7 (valV g.center) := by
  cases h1
  obtain ⟨tokens, paths, h3, h4⟩ := h2
  rw [door_tokens] at h3
  cases h3
  obtain ⟨paths', h5⟩ := door_parse
  rw [h5] at h4
  cases h4
  have key : ∀ {x y z : Int}, IsV g.center x y z → |(x : ℝ)| ≤ 7 → |(y : ℝ)| ≤ 7 → |(z : ℝ)| ≤ 7 →
      FinV g.center ∧ Within 7 (valV g.center) := fun h a b c => by
    refine ⟨isV_fin h, ?_⟩
    rw [isV_val h]
    exact ⟨a, b, c⟩
  simp only [doorProps, List.map_cons, List.map_nil, List.mem_cons, List.not_mem_nil, or_false] at he
  rcases he with rfl | rfl | rfl
  · cases hg
    exact key atZero (by norm_num) (by norm_num) (by norm_num)
  · cases hg
    exact key at567 (by norm_num) (by norm_num) (by norm_num)
  · cases hg
    exact key at123 (by norm_num) (by norm_num) (by norm_num)

/-- C86 for the example: the two origins on the path to the door add up to the centre of its entity. -/
example : ∃ (e : Entity F32) (g : EntityGeo F32) (o1 o2 : V3 F32) (a1 a2 : Actor F32) (wn : Node F32),
    Quarch.run 2 id doorConfig = .ok [wn, .actor o1 a1 [.actor o2 a2 []]] ∧
    Geo.buildEntity doorConfig.textureInfo e = .ok g ∧ e.properties (str! "classname") = some a2.name ∧
    Within (28 * u) (subR (sumR [valV o2, valV o1]) (valV g.center)) ∧
    FinV (V3.add o1 o2) ∧ Within (56 * u) (subR (valV (V3.add o1 o2)) (valV g.center)) := by
  obtain ⟨wn, a1, a2, h⟩ := door_run
  obtain ⟨text, pre, w, post, wn', ls, es, _, _, _, _, hn, hl, hp⟩ :=
    C86_position 2 id doorConfig _ h 7 (by norm_num) (by norm_num) door_centers
  have hnil : ls = [] := by
    cases ls with
    | nil => rfl
    | cons n ls =>
      exfalso
      simp only [List.cons_append, List.cons.injEq] at hn
      obtain ⟨a, cs, e, hcs⟩ := hl n (by simp)
      rw [← hn.2.1] at e
      rw [Node.actor.injEq] at e
      exact hcs _ (e.2.2 ▸ List.mem_singleton.2 rfl) _ _ _ rfl
  subst hnil
  simp only [List.nil_append, List.cons.injEq] at hn
  obtain ⟨rfl, rfl⟩ := hn
  obtain ⟨e, _, g, hg, hrep, hx, hr⟩ := hp _ _ _ _ (.child
    (.top (List.mem_cons_of_mem _ (List.mem_singleton.2 rfl))) (List.mem_singleton.2 rfl))
  obtain ⟨_, _, _, e1, e2⟩ := hrep.named
  rw [Node.actor.injEq] at e1
  rw [← e1.2.1] at e2
  obtain ⟨r1, r2⟩ := hr (by simp)
  refine ⟨e, g, _, _, a1, a2, wn, h, hg, e2, ?_, r1, ?_⟩
  · have e3 : (2 : ℝ) * (([V3.zero, V3.zero] : List (V3 F32)).length : ℕ) * u * 7 = 28 * u := by simp; ring
    rw [← e3]; exact hx
  · have e3 : (4 : ℝ) * (([V3.zero, V3.zero] : List (V3 F32)).length : ℕ) * u * 7 = 56 * u := by simp; ring
    rw [← e3]; exact r2

end
end Quarch
