# Formal model of quarchitect in Lean 4 — design

Subject: `/repo` (QodotPlugin/quarchitect 0.8.0, Rust). Nothing of it is run here; the model is a
hand translation, function by function, and every definition cites the file and lines it models.

## Layout

| path | content |
|---|---|
| `lean/Verif/Model/*.lean` | the model: total, computable Lean functions following the Rust code |
| `lean/Verif/Spec/*.lean` | small specifications written without the model's helpers |
| `lean/Verif/Proofs/*.lean` | helper lemmas |
| `lean/Verif/Props/*.lean` | the property theorems (names `C01_…`), each with a non-vacuity `example` |
| `properties.jsonl`, `MANIFEST.json` | property list, property → theorems |
| `seeded/LOG.jsonl` | log of deliberately wrong models and which theorems caught them |

## Modelling decisions

* **Outcomes.** `Outcome α = ok a | err e | panic m | overflow`: `Result::Err`, a Rust panic and
  exhaustion of the call stack are explicit values. Sequencing follows Rust evaluation order.
* **Strings** are `List Char` (Unicode scalar values). `lines`, `split`, `split_whitespace`,
  `parse::<i32>` are modelled concretely.
* **Floating point and glam.** The model is parametric in a type class `Arith F` whose fields are the
  scalar and vector operations the code calls (`+`, `dot`, `normalize`, `cos`, `atan2`, `parse`, …).
  Structural theorems hold for *every* interpretation (hence for IEEE `f32`); where equality must
  behave, the law `==` symmetric and transitive (true of IEEE, NaN included) is a hypothesis
  (`LawfulEq`). Geometric theorems are proved for the exact interpretation `F = ℝ`; rounding is then
  outside the theorem and this is said in the manifest.
* **Rounding.** `Spec.Rounding F` lists what IEEE 754 single precision guarantees (relative error `u = 2^-24`,
  underflow, no overflow below `2^120`). `Spec/F32.lean` defines binary32 with NaN, infinities, signed zeros and
  rounding to nearest even; `Proofs/F32.lean` proves that it satisfies `Rounding`, `LawfulEq` and `NaNRules`.
* **HashMap** lookups/inserts are finite maps represented as functions `K → Option V`. Where the code
  *iterates* a `HashMap` (worldspawn layers) the iteration order is an explicit arbitrary permutation.
* **Recursion of `build_entity`** takes a stack-depth bound; exceeding it is the outcome `overflow`.
  Non-termination is the statement that every bound overflows.
* **Integer overflow** in `u32`/`i32` arithmetic is modelled with a flag `checks` (debug: panic,
  release: wrap). `usize` arithmetic on in-memory lengths is `Nat`.
* **Parallelism** (`rayon`): the tasks of `read_mip_data` are modelled as slot-writing steps executed in
  an arbitrary schedule.
* **Files** are `Option (List UInt8)` (contents, or unreadable) and do not change during one call.
  `read_to_string` is modelled byte by byte (UTF-8 decoding, `Model/Files.lean`).
* **Platform.** `class Platform` collects what differs between Rust versions or is left open by the standard
  library: Unicode lowercasing, whether `str::lines` strips a lone final carriage return, and `sort_by`, of
  which only this is assumed: the result is a permutation, and it is sorted if the comparison is a total
  preorder. From Rust 1.81 on `sort_by` may also panic when the comparison is not a total order (angles that
  are NaN); the model does not have that abort. C114 shows that in single precision the comparison is a total
  preorder for all brushes of at most 2048 faces with coordinates up to 2^40.
* **Exact arithmetic.** `realArith : Arith ℝ` interprets the operations by real arithmetic with real square
  root, cosine and argument; how numbers are written as text stays open (`class RealText`). Theorems over ℝ
  say nothing about rounding. Division by zero is 0 there, so theorems over ℝ about degenerate faces are stated
  with non-degeneracy hypotheses, and degenerate faces are treated separately with `NaNRules`.
* **NaN.** `Spec.NaNRules F` lists the rules of IEEE 754 that are needed (operations on NaN give NaN,
  comparisons with NaN are false, normalising a zero vector gives NaN). `withNaN` extends any arithmetic to one
  that follows them, so the hypotheses are satisfiable.

## Model and source

| source (`/repo/src`) | model | left out or simplified |
|---|---|---|
| `map/quake/tokenizer.rs` | `Model/Tokenizer` | nothing |
| `map/quake/parser.rs` | `Model/Parser` | nothing; `HashMap<Token, TokenPath>` is a function |
| `map/quake/types/*`, `map/types/uv.rs` | `Model/MapTypes` | derived `Debug` output |
| `types.rs`, `types/*` | `Model/Arith` | derived `Debug` output |
| `geo_builder/**` | `Model/GeoBuilder` | nothing; floating point is a parameter |
| `layer_filter/mod.rs` | `Model/LayerFilter` | iteration order of the hash map is a parameter |
| `scene_tree/**` | `Model/SceneTree` | stack depth is a parameter; derived `Debug` output |
| `game_data/**` | `Model/GameData`, `Model/Constructors`, `Model/Files` | other definitions write record literals instead of calling `new` |
| `wad/**` | `Model/Wad`, `Model/WadLog` | payloads of nom errors; allocation (`vec![0; n]`) always succeeds; the file read again by each task is the one opened before |
| `lib.rs` | `Model/Lib`, `Model/Files`, `Model/Output`, `Model/Log` | text of operating system errors |
| `mod.rs` re-exports, empty files | – | contain no code |

`Model/Rust` holds the parts of the standard library used: `lines`, `split`, `split_whitespace`,
`parse::<i32>`, maps, outcomes.

## How each property is proved

See the table below; it is kept in step with `MANIFEST.json`.

| ids | modelled code | method |
|---|---|---|
| C01–C03 | tokenizer `run`, `str::lines`, `split('"')` | structural induction on text / list of lines |
| C04, C09 | tokenizer + parser + `BrushPlane::new` | printer written as spec; parse∘print = id by induction over entities, brushes, faces |
| C05–C08 | parser state machine | parser = independent scope automaton; induction over tokens |
| C10–C12 | `BrushPlane::new` | case analysis over word lists |
| C13–C16 | `diff_tokens` with its table and backtracking | loop invariants: table = recursive LCS length, index = table entry; optimality by induction; C16 is false: negation + exact characterisation |
| C17–C18 | layer_filter | induction over lists, partition lemmas |
| C19–C20, C23, C24, C31 | geo_builder for every `Arith` | list induction; sort assumed to return a permutation, sorted for total preorders |
| C21, C22, C25, C26, C28–C30 | geo_builder over ℝ | algebra (`ring`, `field_simp`, `linarith`) |
| C27 | entity build | case analysis |
| C32, C72 | false (C32): a collinear face aborts | exact abort condition for every `Arith`; NaN propagation from `NaNRules` |
| C33–C41 | scene_tree gather/filter/visual/collision | invariants of the dedupe loop, induction over brushes and faces |
| C42–C43, C49–C51 | game-data lookups and properties | case analysis and induction over definitions |
| C44–C48 | scene_tree run/build_entity | induction over stack depth and over ancestor chains; C46 is false in general: negation + partial |
| C52 | run with arbitrary layer iteration order | permutation lemma; equality is false: negation + partial |
| C53 | lib run | composition |
| C54–C63 | wad | byte-level encoder as spec, round trip by induction; C56 false for levels > 1 |
| C64–C71 | forge | case analysis, list induction, bit arithmetic; C67, C71 false in general |
| C73–C74 | tangents, texture coordinates over ℝ | quaternion rotation = Rodrigues formula; C74 true of standard layout exactly for half turns |
| C75 | parser token paths | invariant of the parser loop |
| C76–C77 | reading and saving files | UTF-8 decoder inverse to encoder, by induction; line-wise tokenizer lemma |
| C78 | geo_builder over ℝ | linear programming on a face (slide to the boundary twice), edge = two faces, sign computations |
| C79–C80 | geo_builder and scene_tree over ℝ | corners support the body in every direction + separation theorem; triangle sides through deduplication and splitting |
| C81 | geo_builder with rounding | forward error analysis from the rounding laws; IEEE binary32 shown to satisfy them |
| C82 | game_data/forge/entity.rs equality and hashing | from the definitions |
| C83 | geo_builder centres with rounding | induction on the summation, then bounding points by their recentred images |
| C84 | geo_builder normals with rounding | error of one normalisation; the determinant test keeps sums of normals from cancelling |
| C85 | geo_builder over ℝ | discrete intermediate value along the fan, barycentric coordinates; planes without area can be left out one by one |
| C86 | scene_tree positions with rounding | induction on the path: one rounding per origin, one per addition |
| C87 | lib::run: every triangle of every surface in the scene | scene_leaves (what hangs where), surfaces as concatenations of fans, C85 for each face |
| C88 | lib::run: every collision shape in the scene | scene_leaves, C40/C41 per node, C79 and C85 per brush |
| C89 | lib::run_diff: bytes of two files to text on stdout | report as a list of lines, independent of the formatter; quoting read backwards; C01, C02, C13, C15, C76 |
| C90 | geo_builder on boxes, binary32 | exactness of 24 bit multiples of a power of two through subtraction, cross product, normalisation, Cramer's rule, mean and recentring; corners by counting |
| C91 | lib::run on maps of boxes, binary32 | maps of boxes from the text to the picture in single precision: the face lines are cut into words, decimal numbers which are grid points are read exactly, the faces come out exactly (C90), and the triangles of C87 cover the sides. Numbers are any text with digits and at most one point; reading them is assumed to round to nearest (class `DecimalText`) |
| C92 | lib::run | the exact condition for loading to succeed, as a conjunction of C01, C05, C11, C17, C32, C46, C50, C53: nothing else can fail |
| C93 | `Props/BoxSolid` | collision of maps of boxes in single precision: C88 with the exact corners of C90. A box is the hull of its corners (three interpolations, one per axis); the sides are covered as in C91 |
| C94 | lib::run, every `println!` and `eprintln!` it reaches | the load written once more with its output (`Model/Log`), proved to end like the load of `Model/Lib`; the lines as a relation on the entities of the map, independent of the build; reachability by induction on that relation; C02, C17, C18, C32, C76, C92 |
| C95 | wad::read_textures, into_rgb, every `println!` they reach | the reader written once more with its output (`Model/WadLog`), proved to return what `Model/Wad` returns; the lines in terms of the bytes of the file with the relations of C54 and the quoting of C89; any interleaving of the tasks as a permutation |
| C96 | geo_builder::standard_uv, standard_tangent (the `panic!` branches), face_normal | a vector of single precision numbers has a largest component iff it is finite; equal products are rounded equally, so points on a line give a zero vector product and a NaN normal; short edges give products without rounding, and a lower bound on the length; C32, C92 |
| C97 | run, scene_tree::run, build_entity, layer_filter::run, tokenizer, parser | a load rewritten as a function of the list of entities (`run_list`); the recursion visits only groups below an entity, by induction on the depth; more stack gives the same node; concatenation of token lists and the grammar of C92 |
| C98 | run, scene_tree::*, geo_builder::build, TextureBlacklist, TextureInfo | congruence of every function of the scene builder in the configuration, by induction on the depth; textures of geometry come from faces |
| C99 | get_brush_entity_visual_geometry, predicates::texture, build_entity | the list of textures is filtered, and every surface has the texture it was built for; induction over the tree |
| C100 | run, build_entity, geo_builder::run, collision shapes, layer nodes | relational proofs: every function that makes collision shapes takes related data to related results (`Alike.lean`), with the relation "same corners" instead of "same textures"; induction on the depth of the tree. Assumes `Spec.NaturalSort` |
| C101 | run, build_entity, geo_builder (all), scene collision and visual geometry, layer nodes | C103 without a rotation (`Moving.lean`). Assumes `Spec.NaturalSort` |
| C102 | run, build_entity, brush_plane::build, textured surfaces, layer nodes | relational proofs as for C100, with C34 for the triangles of surfaces. Assumes `Spec.NaturalSort` |
| C103 | run, scene_tree, geo_builder, layer_filter | relational proofs as for C101, which follows from it now: a rotation keeps scalar products and commutes with vector products, so corners, angles and centres turn with the map. Assumes `Spec.NaturalSort` |
| C104 | run, scene_tree, geo_builder, layer_filter | lists in another order with a relation between elements; corners of a face have different angles about its centre (convex position), so sorting them gives the same list whatever the order they were found in |
| C105 | run, scene_tree, geo_builder, layer_filter | similarity transformations (C103 is the case of scale 1); the tolerance 0.001 does not scale, so corners must be clear of it; witness without that condition |
| C106 | run, scene_tree, geo_builder, layer_filter | everything commutes with a similarity that also carries the texture axes and offsets: vertices, normals, tangents, merging of vertices; common proof with C103 and C105 |
| C107 | wad::read_textures with a whitelist | the reader for any number of levels as a relation on directory entries; a whitelist filters the selected entries; case witness on a concrete file |
| C108 | geo_builder in binary32 against exact arithmetic | a verified evaluator for binary32 (`Proofs/Soft.lean`: sign, mantissa and exponent as integers, proved to agree with `Spec.F32`) computes the corners of a concrete brush inside the kernel, for both ways of normalizing; false in general: negation + partial (boxes) |
| C109 | geo_builder in binary32 against exact arithmetic | the evaluator of C108 extended to the corners of a face after removing duplicates and recentring (`Proofs/SoftFace.lean`); tetrahedra as proper brushes (`Proofs/Tetra.lean`); false in general: negation + partial (boxes) |
| C110 | `Default` implementations of game_data, wad, types | a class or layer with default data against one without: the same scene (via C98); default header and entry are what zero bytes are read as; texts of the default definition entries |
| C111 | scene builder: visuals and collision together | what is drawn is solid: with concave collision for everything that has a mesh every drawn triangle is a collision triangle, and conversely with empty blacklists; with convex collision its corners are corners of one shape and, in exact arithmetic, drawn points are in a solid |
| C112 | face parser, WAD reader, configuration | names that are not the lower-case form of a word have no effect in texture info and blacklists, for every load; a face finds the texture of a WAD file by its name in any letter case |
| C113 | wad parsers (color, palette, header, entry, mip_texture, mip_level) | every record has a fixed size, fails on fewer bytes, depends on no others and leaves them; a level is its bytes, a palette 256 triples |
| C114 | geo_builder/brush_plane (sorting of corners), single precision | the comparison passed to `sort_by` is consistent for every face of every brush of at most 2048 faces with coordinates up to 2^40, degenerate or not; corners are in order of decreasing angle; a NaN angle among others would break this |
| C115 | geo_builder/brush_plane (uvs, tangents), single precision | boxes on a grid, texture size and scale powers of two: coordinates are the exact ones rounded once, exact if the offset is on the grid, whole numbers of tiles from box to box; tangents exact |
| C116 | geo_builder in binary32 against exact arithmetic | forward error analysis of normals, Cramer's rule and the hull test (`Proofs/Corner.lean`): every true corner of a small brush is found, within 1/2000 of a unit; gives the second positive part of C108 |
| C117 | geo_builder in binary32 against exact arithmetic | the converse of C116 for faces without doubtful corners (`Spec/Clear.lean`): computed points near parallel planes are skipped and points outside are rejected, so exactly the true corners are built, each once if three planes meet there; faces sharing a corner agree within 1/1000 of a unit |
| C118 | geo_builder winding in binary32 | order of the corners of clear faces (`Spec/Outline.lean`): with an arc tangent accurate to 2⁻²¹ the built corners follow the convex outline clockwise, so no triangle of the fan is flipped |
| C119 | geo_builder brushes in binary32 | closedness of firm brushes (`Spec/Sealed.lean`): every triangle side has its opposite within 1/1000 of a unit, and only one; counterpart of C78 for floats, and of the cracks of C109 |
| C120 | geo_builder texture coordinates in binary32 | texture coordinates of clear faces (`Spec/Texels.lean`): within 1/100 of a texel of the exact ones, with and without texture axes, also rotated; continuous across edges up to 1/16 of a texel; general-shape counterpart of C115 |
| C121 | geo_builder normals in binary32 | normals of clear faces (`Spec/Gloss.lean`): flat ones within 1/10^6 of the outward direction, smooth ones within 1/2000 of the direction of the sum of the normals meeting there, with and without an angle; single-precision counterpart of C29 |
| C122 | geo_builder tangents in binary32 | tangents of small faces (`Spec/Spin.lean`): exactly the first texture axis, or within 1/50000 of the first axis of the projection plane turned around the outward direction; signs exact; single-precision counterpart of C73 |
| C123 | whole pipeline in binary32: meshes | picture of maps of firm brushes (`Spec/Rendered.lean`): the drawn points and the exact faces agree up to 1/2000 of a unit, both ways; general-shape counterpart of C91, single-precision counterpart of C87/C89 |
| C124 | whole pipeline in binary32: collision | collision of maps of firm brushes: the convex shapes and the exact brushes, and the concave triangles and the exact borders, agree up to 1/2000 of a unit, both ways; general-shape counterpart of C93 |
| C125 | whole pipeline in binary32: meshes and collision | picture and collision of maps of pointed brushes (`Spec/Pointed.lean`): as C123 and C124 without the requirement that only three planes meet at a corner; where more meet, the corner is found several times, not quite at the same place |
| C126 | whole pipeline: data of the corners of the triangles | what `Spec/Painted.lean` says the arrays of a surface should hold at the indices of a triangle: all data of one vertex of the same brush; those of the face itself where merging changes nothing; in binary32, position, normal, texture coordinate and tangent of the true corner |
| C127 | whole pipeline: sides of triangles | `Spec/Holes.lean`: directed sides of the triangles of meshes and concave shapes in the scene; each has its opposite: exactly over ℝ and for boxes in binary32, within 1/1000 for firm and pointed brushes in binary32 |
| C128 | whole pipeline: orientation of triangles | `Spec/Facing.lean`: the triangle is clockwise seen from the side to which a vector points; over ℝ also for the stored normals |
| C129 | `geo_builder`, concave collision | `Spec/Enclosed.lean`: side of a triangle, sum of directed areas, volume measured from a point; `Spec/Volume.lean`: Lebesgue measure of a brush |
| C130 | `geo_builder` smooth normals | `Spec/Seams.lean`: faces smoothed over, directions, corners of three faces |
| C131 | `scene_tree` number of nodes, vertices and indices | `Spec/Size.lean`: number of nodes, vertices and indices, squares and cubes of the numbers of planes, texts without brushes, levels of repeated groups |
| C132 | `geo_builder` number of corners and triangles | `ProperBrush` (Props/Watertight.lean), `Spec/Sealed.lean`: proper and firm brushes, as for C78 and C119 |
| C133 | `scene_tree` groups, whole load | `Spec/Tree.lean`: which entities are reached from the top level; `Spec/Loads.lean` |
| C134 | `geo_builder` in exact arithmetic | `Spec/Idle.lean`: a face the brush stays strictly behind, even widened by 0.001 |
| C135 | `geo_builder` in exact arithmetic, whole load | `Spec/Twice.lean`: brushes with the same faces, each written any number of times |
| C136 | `geo_builder::brush_plane::uvs` in single precision, whole load | `Spec/Zero.lean`: faces whose texture or scale makes the code divide by zero |
| C137 | `geo_builder` in exact arithmetic, whole load | `Spec/Sheet.lean`: brushes all of whose faces lie almost across one direction |
| C138 | `geo_builder` in exact arithmetic, whole load | `Spec/Few.lean`: brushes with at most three different faces |
| C139 | `geo_builder` in exact arithmetic, whole load | `Spec/InsideOut.lean`: bodies all of whose faces are written the wrong way round |
| C140 | `geo_builder` in exact arithmetic, whole load | `Spec/Mirror.lean`: mirror images, turned and moved |
| C141 | `geo_builder` in exact arithmetic, whole load | `Spec/MirrorWorld.lean`: mirror images with the points of every face put back into order |
| C142 | whole load, triangles and shapes of the scene | `Spec/Join.lean`: brushes of anchored entities with their properties |
| C143 | `geo_builder` in exact arithmetic, whole load | `Spec/Cut.lean`: brushes cut in two by a plane |
| C144 | whole load in exact arithmetic, meshes and shapes of the scene | `Spec/Walk.lean`: walks without jumps |
| C145 | whole load in single precision, meshes and shapes of the scene | `Spec/Walk.lean`: walks without jumps, with `Spec/Pointed.lean` |
| C146 | `geo_builder` in exact arithmetic, whole load | `Spec/Clip.lean`: all brushes clipped at one plane |
| C147 | whole load in exact arithmetic and in single precision, meshes and shapes of the scene | `Spec/Walls.lean`: the surface of a set of points |
| C148 | whole load in exact arithmetic, meshes and shapes of the scene | `Spec/Walls.lean`: the surface of a set of points; brushes that do not touch |

No property is considered inexpressible. Not modelled (everything the library itself prints is modelled, C89, C94 and C95): messages of panics, timing, memory
exhaustion, the bytes of error messages that embed OS error text (kept as abstract tags), and a standard output or standard
error that cannot be written to (`println!` and `eprintln!` then abort).

## Wrong models

`seeded/LOG.jsonl` has one line per deliberate change to a model definition. `theorems_failed` are the theorems
whose proofs break directly. `properties_no_longer_proved` are the property theorems that break or rest on a
broken one; that they rest on it does not by itself show their statements false of the changed model.

## Trusted base

* The Lean 4.33.0 kernel, and Mathlib as installed.
* Axioms: `propext`, `Classical.choice`, `Quot.sound`, nothing else. `AXIOMS.md` lists them for each theorem.
* That `Verif/Model` says what the Rust code does: the translation is by hand, with file and line given at each
  definition, and was never compared with running code. `Props/UnitTests.lean` repeats the 18 unit tests of the crate
  (all about printing definition files) on the model, with numbers counted in thousandths instead of `f32`.
* That the standard library, nom, rayon and glam behave as recorded in `Verif/Model`.
* For theorems over ℝ: that `f32` is close enough to ℝ. Only C81, C83, C84, C86, C90, C91, C93, C96, C108, C109, C114, C115, C116 and C32_good_faces_partial are about rounding.
* For those: that `f32` operations round as IEEE 754 prescribes (`Spec/F32.lean`), and that glam computes `dot` and
  `cross` as sums of products from left to right and `normalize` by dividing by the square root of the dot product
  or multiplying by its reciprocal. The source of glam was not at hand to check this.
* C90_wound, C91 and C93 (not C93_shapes and C93_filled) only: that `atan2` puts angles of different quadrants in the right order (class `QuadrantAtan2`).
* C100 to C103 only: that `sort_by` looks at elements only through the comparison (class `NaturalSort`), as it is generic in the
  element type.
* C91 and C93_loads only: that a decimal number of at most 64 characters is read as the nearest `f32` (class `DecimalText`).
