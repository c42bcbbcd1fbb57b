{"id": "C01", "title": "Map text is read line by line, each line classified on its own", "statement": "Reading a map file turns every line of the text into exactly one token, in file order, and the kind of the token depends on the first character of that line only ('/' comment, '\"' property, '{' open, '}' close, '(' face, anything else ignored). Consequently reading a text that ends with a line break followed by a second text gives the tokens of the first followed by the tokens of the second.", "quantifier": "every text (any Unicode characters, any number of lines, \\n or \\r\\n endings)", "why_tests_cant": "There are unboundedly many texts; a unit test fixes a handful of lines.", "anchors": ["src/map/quake/tokenizer.rs: run"]}
{"id": "C02", "title": "Only property lines with fewer than three quotes abort tokenising", "statement": "Reading the lines of a map aborts if and only if some line starts with a double quote and contains fewer than three double quotes; otherwise every line is read.", "quantifier": "every text", "why_tests_cant": "An 'only if' over all texts cannot be sampled.", "anchors": ["src/map/quake/tokenizer.rs: run"]}
{"id": "C03", "title": "Key/value lines are read back exactly", "statement": "A line '\"key\" \"value\"' whose key and value contain no double quote is read as exactly that key and that value, whatever follows the closing quote on that line.", "quantifier": "every key, value and trailing text without line breaks, including empty keys/values, spaces, braces and slashes", "why_tests_cant": "All strings; tests only use a few keys.", "anchors": ["src/map/quake/tokenizer.rs: run, Property::new"]}
{"id": "C04", "title": "Map text round trip", "statement": "Printing any list of entities (key/value pairs, brushes, faces) as map text and loading it back yields the same entities: same order, same properties, same brushes, same faces.", "quantifier": "every list of entities with any number of properties, brushes and faces, each face in any supported format, with comment and blank lines anywhere between lines", "why_tests_cant": "Unbounded nesting of lists and all strings/numbers.", "anchors": ["src/map/quake/tokenizer.rs: run", "src/map/quake/parser.rs: run", "src/map/quake/types/brush_plane.rs: BrushPlane::new"]}
{"id": "C05", "title": "Brace structure is the only structural check, and it never aborts", "statement": "If every face line can be read, loading a token sequence fails with an error exactly when a token appears in a scope that does not allow it ('{' inside a brush, '}' at file level, a property outside an entity or inside a brush, a face outside a brush), reporting the error for the first such token; it never aborts because of structure. (Face lines that cannot be read are the other source of errors: C53 says which fault comes first.)", "quantifier": "every sequence of tokens", "why_tests_cant": "The accepting language is infinite and rejecting must be exact on all of it.", "anchors": ["src/map/quake/parser.rs: run"]}
{"id": "C06", "title": "Comments and unrecognised lines have no effect", "statement": "Inserting or removing comment lines and unrecognised lines anywhere in a map does not change the entities that are loaded, nor whether loading fails.", "quantifier": "every map and every set of insertion points", "why_tests_cant": "All interleavings of ignored lines.", "anchors": ["src/map/quake/parser.rs: run"]}
{"id": "C07", "title": "Last value wins for a repeated key", "statement": "If a key is given several times inside one entity, the loaded entity has the last value given; all other keys are unaffected.", "quantifier": "every sequence of key/value lines of one entity", "why_tests_cant": "All histories of insertions.", "anchors": ["src/map/quake/parser.rs: run", "src/map/quake/types/entity.rs: Entity::get_property"]}
{"id": "C08", "title": "Truncated maps load without complaint", "statement": "Cutting a loadable map at any line yields a map that also loads without error, and the entities loaded from it are a prefix of the full map's entities except that the last one may be missing trailing brushes, faces or properties. In particular missing closing braces at the end are never reported.", "quantifier": "every loadable token sequence and every cut point", "why_tests_cant": "Every truncation (crash) point of every file.", "anchors": ["src/map/quake/parser.rs: run"]}
{"id": "C09", "title": "Faces keep file position, faces never leak between brushes or entities", "statement": "After a successful load, the number of entities is the number of '{' read at file level, the k-th brush of the e-th entity holds exactly the faces written between its braces, in order, and no other.", "quantifier": "every token sequence that loads", "why_tests_cant": "All nestings.", "anchors": ["src/map/quake/parser.rs: run"]}
{"id": "C10", "title": "Face line round trip in all five formats", "statement": "A face written in the standard, Valve 220, Hexen II, Quake II or Daikatana layout is read back with the same three points, lower-cased texture, UV data, rotation, scale and extra data.", "quantifier": "every numeric value whose printed form reads back as itself, every whitespace-free texture name, any amount of whitespace between words", "why_tests_cant": "All numeric values and names, all formats.", "anchors": ["src/map/quake/types/brush_plane.rs: BrushPlane::new, ExtraData::quake_2, ExtraData::daikatana"]}
{"id": "C11", "title": "Face line failures: which return an error and which abort", "statement": "Reading a face line returns an error only for a wrong number of trailing values (not 0, 1, 3 or 6) or for an unparsable Quake II / Daikatana trailing value, with the first failing value deciding the message; any missing or unparsable number before that aborts, and so does an unparsable single (Hexen II) trailing value; otherwise it succeeds.", "quantifier": "every sequence of words", "why_tests_cant": "An exhaustive classification of an infinite input space.", "anchors": ["src/map/quake/types/brush_plane.rs: BrushPlane::new"]}
{"id": "C12", "title": "Texture names are case-insensitive", "statement": "Two map files that differ only in the letter case of face texture names (and the space between the words of face lines) load identically: they give the same nodes, the same error or the same abort.", "quantifier": "every pair of map files, face lines and texture names with the same lower-case form, every configuration", "why_tests_cant": "All names.", "anchors": ["src/map/quake/types/brush_plane.rs: BrushPlane::new"]}
{"id": "C13", "title": "Diff terminates and aborts exactly on empty input", "statement": "Comparing two maps aborts if and only if one of them has no lines; in every other case the backtracking ends, never indexes outside its tables and fills every slot of the common part.", "quantifier": "every pair of token sequences", "why_tests_cant": "Index safety over all lengths and all equalities patterns.", "anchors": ["src/map/quake/tokenizer.rs: diff_tokens", "src/lib.rs: run_diff"]}
{"id": "C14", "title": "Diff reports every line that is only in one file", "statement": "Every line of the first file whose content does not occur in the second file is reported as removed, every line of the second that does not occur in the first is reported as added; reported lines appear in file order and come from the right file.", "quantifier": "every pair of non-empty token sequences", "why_tests_cant": "All pairs of files.", "anchors": ["src/map/quake/tokenizer.rs: diff_tokens"]}
{"id": "C15", "title": "Diff keeps a longest common subsequence", "statement": "The lines kept as common form a common subsequence of the two files with the last line of each left out, and no longer common subsequence of those exists; a line is reported as removed/added exactly when its content is not in that common part.", "quantifier": "every pair of non-empty token sequences", "why_tests_cant": "Optimality is a statement about all alternatives for all inputs.", "anchors": ["src/map/quake/tokenizer.rs: diff_tokens"]}
{"id": "C16", "title": "Comparing a file with itself reports nothing", "statement": "Comparing a file with an identical file reports no added and no removed line.", "quantifier": "every non-empty token sequence", "why_tests_cant": "All files; the failing shape (last line unlike every other line) is easy to miss in samples.", "anchors": ["src/map/quake/tokenizer.rs: diff_tokens"]}
{"id": "C17", "title": "Exactly one worldspawn is required and it comes first", "statement": "Building aborts unless exactly one entity has classname 'worldspawn'; if there is exactly one it becomes the first entity and all other entities keep their relative order.", "quantifier": "every list of entities", "why_tests_cant": "All positions and multiplicities of worldspawn.", "anchors": ["src/layer_filter/mod.rs: run"]}
{"id": "C18", "title": "Every worldspawn brush ends in exactly one place", "statement": "The brushes of worldspawn are split among the '*water0' layer, the '*slime0' layer and worldspawn itself: none is lost, none is duplicated, order is kept within each part, and a brush is in a layer exactly when all its faces have that layer's texture (and it was not claimed by an earlier layer). No other entity is changed.", "quantifier": "every worldspawn brush list", "why_tests_cant": "Conservation for all lists.", "anchors": ["src/layer_filter/mod.rs: run, brush_geometry_by_layer"]}
{"id": "C19", "title": "Face triangulation is a fan with valid indices", "statement": "A face with n corners yields no triangles if n < 3 and otherwise exactly the n-2 triangles (0, i+1, i+2); all indices are valid and every corner is used.", "quantifier": "every face of every brush, every number of corners, any arithmetic", "why_tests_cant": "Every n.", "anchors": ["src/geo_builder/brush_plane/mod.rs: build"]}
{"id": "C20", "title": "Face corners are distinct and none is lost", "statement": "Before the corners are made relative to the centre of the face, the corners of a face are pairwise different positions; every intersection point found for the face is represented by a corner, and every corner is one of those points.", "quantifier": "every brush and face, any floating point semantics in which equality is symmetric and transitive", "why_tests_cant": "All coincidence patterns between intersection points.", "anchors": ["src/geo_builder/brush_plane/mod.rs: build"]}
{"id": "C21", "title": "Face corners lie on the face and inside the brush", "statement": "In exact arithmetic every corner of a face lies on the plane of that face and on two further planes of the brush, and lies behind every plane of the brush up to 0.001.", "quantifier": "every brush (any number of non-degenerate planes) and every face", "why_tests_cant": "Continuum of planes.", "anchors": ["src/geo_builder/brush_plane/vertices.rs: intersect_brush_planes, vertex_in_hull", "src/geo_builder/brush_plane/mod.rs: build_plane_vertex", "src/map/quake/types/brush_plane.rs: BrushPlane::normal, BrushPlane::dist"]}
{"id": "C22", "title": "No corner is lost because of the order of planes", "statement": "In exact arithmetic, whenever three planes of the brush meet in one point at a sufficiently large angle (|det| >= 0.001) and the point is inside the brush, that point is a corner of each of the three faces, regardless of the order in which the planes are written.", "quantifier": "every brush and every three planes", "why_tests_cant": "Continuum of planes and all orders.", "anchors": ["src/geo_builder/brush_plane/vertices.rs: intersect_brush_planes", "src/geo_builder/brush_plane/mod.rs: build"]}
{"id": "C23", "title": "Corner set does not depend on the order of faces in the file", "statement": "Reordering the faces of a brush does not change the set of corner positions of any of its faces (up to floating point equality, before the corners are made relative to the centre).", "quantifier": "every permutation of every brush, any arithmetic", "why_tests_cant": "Factorially many orders.", "anchors": ["src/geo_builder/brush_plane/mod.rs: build"]}
{"id": "C24", "title": "Corners are wound in decreasing angle around the face centre", "statement": "The corners of a face are listed in non-increasing order of their angle around the face centre measured in the face's own axes, so the outline turns in one direction; the positions that are sorted are the corners where the planes meet, relative to the face centre.", "quantifier": "every face whose corner angles are comparable (the comparison is a strict weak order on them)", "why_tests_cant": "All polygons.", "anchors": ["src/geo_builder/brush_plane/mod.rs: build"]}
{"id": "C25", "title": "Fan triangles face the same way", "statement": "In exact arithmetic all triangles of a face whose corners are in convex position turn in the same direction with respect to the face normal (none is flipped).", "quantifier": "every convex face outline with any number of corners", "why_tests_cant": "Continuum of polygons, every size.", "anchors": ["src/geo_builder/brush_plane/mod.rs: build"]}
{"id": "C26", "title": "Centres are means", "statement": "In exact arithmetic the centre of a face is the mean of its corners, the centre of a brush the mean of its face centres, and the centre of an entity without 'origin' the mean of its brush centres; the sums of deviations are zero and empty lists give the zero vector rather than a division by zero.", "quantifier": "every face, brush, entity", "why_tests_cant": "All sizes.", "anchors": ["src/geo_builder/brush_plane/mod.rs: build", "src/geo_builder/brush/mod.rs: build", "src/geo_builder/entity/mod.rs: build"]}
{"id": "C27", "title": "Origin property sets the entity centre", "statement": "If an entity has an 'origin' property its centre is given by the first three space-separated words, each missing or unparsable word counting as 0; brushes do not matter then.", "quantifier": "every origin string", "why_tests_cant": "All strings.", "anchors": ["src/geo_builder/entity/mod.rs: build"]}
{"id": "C28", "title": "Translating a brush translates its corners", "statement": "In exact arithmetic moving all planes of a brush by a vector moves every corner of every face by that vector and changes neither normals nor which corners exist.", "quantifier": "every brush and vector", "why_tests_cant": "Continuum.", "anchors": ["src/geo_builder/brush_plane/vertices.rs: intersect_brush_planes, vertex_in_hull"]}
{"id": "C29", "title": "Normals are unit vectors, flat faces use the face normal", "statement": "In exact arithmetic, without '_phong' = '1' each vertex normal is the unit normal of its face; with it the normal is the normalised sum of the face normal and those normals, of the two other faces meeting at the corner, that are within the phong angle (both if the angle is missing or unparsable).", "quantifier": "every brush, face, phong angle string", "why_tests_cant": "Continuum and all strings.", "anchors": ["src/geo_builder/brush_plane/normals.rs: vertex_normal, phong_normal", "src/geo_builder/brush_plane/mod.rs: build"]}
{"id": "C30", "title": "Texture coordinates are affine in position and follow the texture size", "statement": "In exact arithmetic the UV of a vertex is the projected position divided by texture size and face scale plus the offset divided by texture size; moving along the texture axis by texture width times scale moves u by exactly one tile (Valve layout).", "quantifier": "every face, vertex and non-degenerate texture size and scale", "why_tests_cant": "Continuum.", "anchors": ["src/geo_builder/brush_plane/uvs.rs: vertex_uv, standard_uv, valve_uv"]}
{"id": "C31", "title": "UVs exist exactly for known textures and colours exactly for Daikatana faces", "statement": "Vertices of a face have texture coordinates and the face has a texture name exactly when the texture is in the supplied texture information; they have a colour exactly when the face carries Daikatana data, and then it is that colour.", "quantifier": "every face and texture table, any arithmetic", "why_tests_cant": "All tables.", "anchors": ["src/geo_builder/brush_plane/mod.rs: build, build_plane_vertex"]}
{"id": "C32", "title": "Degenerate faces", "statement": "Building a map never aborts because the three points of a face line are collinear.", "quantifier": "every map containing such a face", "why_tests_cant": "NaN propagation through the whole pipeline; all collinear triples.", "anchors": ["src/geo_builder/brush_plane/tangents.rs: standard_tangent", "src/geo_builder/brush_plane/vertices.rs: vertex_in_hull"]}
{"id": "C33", "title": "Mesh surfaces are well formed", "statement": "In every mesh surface the position, normal and tangent arrays have the same length, UV and colour arrays have that length if present, every index is inside the arrays, the number of indices is a multiple of three and the surface is not empty.", "quantifier": "every map, blacklist, texture table and game data, any floating point semantics in which equality is symmetric and transitive", "why_tests_cant": "Index safety after dedup and offsetting for all inputs.", "anchors": ["src/scene_tree/mod.rs: build_brush_entity_texture_surface, gather_entity_geometry, gather_brush_geometry, filter_vertices"]}
{"id": "C34", "title": "Vertex sharing never moves or drops a triangle", "statement": "Merging duplicate vertices keeps the list of triangles: the t-th triangle of a surface has, corner by corner, the same positions as the t-th triangle of the selected faces in brush and face order, and no triangle is lost or added.", "quantifier": "every geometry, any floating point semantics in which equality is symmetric and transitive", "why_tests_cant": "All duplicate patterns.", "anchors": ["src/scene_tree/mod.rs: filter_vertices, gather_brush_geometry, gather_entity_geometry"]}
{"id": "C35", "title": "Vertex sharing keeps vertex attributes", "statement": "Merging duplicate vertices keeps normal, tangent, UV and colour of every triangle corner.", "quantifier": "every geometry", "why_tests_cant": "The failing pattern needs three coincident vertices with two attribute sets.", "anchors": ["src/scene_tree/mod.rs: filter_vertices", "src/scene_tree/predicates/vertex.rs: unique"]}
{"id": "C36", "title": "No duplicate vertices inside one brush of a surface", "statement": "Within the part of a surface contributed by one brush no two vertices are equal in all of position, normal, tangent, UV and colour, and every distinct vertex of the selected faces is present.", "quantifier": "every brush", "why_tests_cant": "All duplicate patterns.", "anchors": ["src/scene_tree/mod.rs: filter_vertices", "src/scene_tree/predicates/vertex.rs: unique"]}
{"id": "C37", "title": "One surface per visible texture, untextured last", "statement": "The surfaces of an entity have pairwise different textures; a texture has a surface exactly when it is not on the face blacklist and some face with at least one corner in a brush that is not fully blacklisted carries it (and it is known); the surface of faces with unknown texture, if any, comes last.", "quantifier": "every entity, blacklist and texture table", "why_tests_cant": "All texture multisets and blacklists.", "anchors": ["src/scene_tree/mod.rs: get_brush_entity_visual_geometry", "src/scene_tree/predicates/texture.rs"]}
{"id": "C38", "title": "Blacklisted faces and brushes are not rendered", "statement": "No face whose texture is on the face blacklist and no brush all of whose faces are on the brush blacklist contributes to visual geometry.", "quantifier": "every entity, blacklist and texture table", "why_tests_cant": "All combinations; the failing case needs a blacklisted texture absent from the texture table.", "anchors": ["src/scene_tree/mod.rs: get_brush_entity_visual_geometry", "src/scene_tree/predicates/brush.rs: not_blacklisted", "src/types/texture.rs: TextureBlacklist"]}
{"id": "C39", "title": "Nothing visible is lost", "statement": "Every triangle of every face that is in a non-blacklisted brush and has a non-blacklisted texture (or no known texture) appears in exactly one surface, the one with the face's texture.", "quantifier": "every entity, blacklist and texture table", "why_tests_cant": "Completeness over all inputs.", "anchors": ["src/scene_tree/mod.rs: get_brush_entity_visual_geometry"]}
{"id": "C40", "title": "Convex collision: one shape per brush with its distinct corners", "statement": "With convex collision there is exactly one shape per brush, in order, centred at the brush centre, whose points are exactly the positions of the brush's face corners, each once; blacklists have no influence.", "quantifier": "every entity", "why_tests_cant": "All duplicate patterns.", "anchors": ["src/scene_tree/mod.rs: get_entity_convex_collision"]}
{"id": "C41", "title": "Concave collision: all triangles, shared corners", "statement": "With concave collision there is at most one shape; its indices are valid, its triangles are position by position the triangles of all faces of all brushes in order, corners are shared within a brush by position; it is absent exactly when there is no corner at all.", "quantifier": "every entity", "why_tests_cant": "All inputs.", "anchors": ["src/scene_tree/mod.rs: get_entity_concave_collision"]}
{"id": "C42", "title": "Visual and collision nodes follow the game definition", "statement": "The node built for an entity has a visual child only if the first definition with its classname is a brush definition with mesh visuals, and a collision child only if that definition has that collision type; point and undefined classes have neither.", "quantifier": "every entity and list of definitions", "why_tests_cant": "All definition lists, including duplicates.", "anchors": ["src/scene_tree/mod.rs: get_entity_visual_geometry, get_entity_collision_geometry"]}
{"id": "C43", "title": "Entity type, component and property mode come from the first matching definition", "statement": "An entity node's type, component class and property application mode are those of the first definition with the same classname, and Placeholder/none/Properties if there is none.", "quantifier": "every entity and definition list", "why_tests_cant": "All definition lists.", "anchors": ["src/scene_tree/mod.rs: get_entity_type, get_entity_component_class, get_entity_property_application_type"]}
{"id": "C44", "title": "Top level of the scene", "statement": "The result list is: the worldspawn node, then layer nodes, then one node for every other entity without '_tb_group', in file order; each is named by its classname.", "quantifier": "every map that builds", "why_tests_cant": "All entity lists.", "anchors": ["src/scene_tree/mod.rs: run", "src/lib.rs: run"]}
{"id": "C45", "title": "Groups nest exactly by id", "statement": "The entity children of a node are exactly the nodes of the non-worldspawn entities whose '_tb_group' equals the node's '_tb_id', in file order.", "quantifier": "every map that builds, every depth", "why_tests_cant": "All trees.", "anchors": ["src/scene_tree/mod.rs: build_entity"]}
{"id": "C46", "title": "Building the scene terminates", "statement": "Building the scene ends for every map (nesting of groups never recurses without bound).", "quantifier": "every assignment of '_tb_id' and '_tb_group'", "why_tests_cant": "All graphs; the bad ones contain a reachable cycle.", "anchors": ["src/scene_tree/mod.rs: build_entity"]}
{"id": "C47", "title": "Every entity appears exactly once", "statement": "If group ids are unique and every '_tb_group' leads to an ungrouped ancestor, every entity of the map appears as exactly one node of the scene tree.", "quantifier": "every map with these id properties", "why_tests_cant": "All forests.", "anchors": ["src/scene_tree/mod.rs: run, build_entity"]}
{"id": "C48", "title": "Nested entities keep their world position", "statement": "In exact arithmetic, adding up the origins along the path from a top-level node to a nested entity node gives that entity's own centre.", "quantifier": "every map that builds and every path", "why_tests_cant": "All depths.", "anchors": ["src/scene_tree/mod.rs: build_entity"]}
{"id": "C49", "title": "Typed properties with fallback to the declared default", "statement": "The property set of an entity node has exactly the declared property names of the first forge definition with its classname plus those of '_tb_id', '_tb_group', '_tb_type', '_tb_name' that are present; a declared property has the declared kind and carries the parsed value if the entity gives a parsable one and the declared default otherwise.", "quantifier": "every entity and forge definition list", "why_tests_cant": "All strings and definitions.", "anchors": ["src/scene_tree/mod.rs: get_entity_properties, parse_vector3_property, parse_color_property"]}
{"id": "C50", "title": "Malformed values of declared properties never abort", "statement": "An unparsable value of any declared property never aborts the build (it falls back to the default); the build aborts in the property step exactly when the class has a forge definition and '_tb_id' or '_tb_group' is present but not a 32-bit integer.", "quantifier": "every entity and definition", "why_tests_cant": "All strings.", "anchors": ["src/scene_tree/mod.rs: get_entity_properties"]}
{"id": "C51", "title": "Worldspawn layer nodes", "statement": "A layer produces a node exactly when the game data has exactly one layer with its texture and that layer yields visual or collision geometry; the node carries that layer's name, type and component and has only those children, at the origin.", "quantifier": "every layer table and geometry", "why_tests_cant": "All tables.", "anchors": ["src/scene_tree/mod.rs: build_worldspawn_layer, get_worldspawn_layer_visual_geometry, get_worldspawn_layer_collision_geometry"]}
{"id": "C52", "title": "Loading is deterministic", "statement": "Loading the same map with the same configuration twice gives the same list of nodes.", "quantifier": "every map and every hash seed", "why_tests_cant": "Hash iteration order is random per process; all seeds.", "anchors": ["src/scene_tree/mod.rs: run", "src/layer_filter/mod.rs: run"]}
{"id": "C53", "title": "Errors versus aborts of a load", "statement": "Loading returns an error exactly when the file cannot be read as text or the text is structurally invalid / has invalid trailing face values; it aborts when an entity that is reached from the top level, over any number of groups, has no classname; a successful load never contains an entity node without a classname.", "quantifier": "every file content and configuration", "why_tests_cant": "All inputs.", "anchors": ["src/lib.rs: run", "src/scene_tree/mod.rs: build_entity"]}
{"id": "C54", "title": "WAD round trip", "statement": "Reading (with one mip level) any WAD2 or WAD3 file laid out from a list of textures yields these textures in directory order: lower-cased name, size, offsets, pixels, and for WAD3 the palette.", "quantifier": "every list of textures of any size, any gaps between lumps", "why_tests_cant": "All byte contents and layouts.", "anchors": ["src/wad/mod.rs: read_textures", "src/wad/header.rs", "src/wad/entry.rs", "src/wad/mip_texture.rs", "src/wad/palette.rs"]}
{"id": "C55", "title": "Truncated WAD files give an error, never garbage", "statement": "If a byte range needed for the header, a directory entry, a selected texture header, its pixels or its palette lies outside the file (whose magic, if it has the 12 bytes of a header, is known), reading (one mip level, no address overflow) returns an error; reading never returns data that was not in the file.", "quantifier": "every byte string and every truncation", "why_tests_cant": "All crash points of a writer.", "anchors": ["src/wad/mod.rs: read_header, read_directory, read_mip_textures, read_mip_data"]}
{"id": "C56", "title": "All requested mip levels can be read", "statement": "Requesting 1 to 4 mip levels returns that many levels for every texture of a well-formed WAD.", "quantifier": "every well-formed WAD and 1 <= levels <= 4", "why_tests_cant": "All sizes; levels > 1 are never exercised by tests.", "anchors": ["src/wad/mod.rs: read_mip_data"]}
{"id": "C57", "title": "Directory selection", "statement": "The textures returned are exactly those directory entries of type 'C' or 'D' whose directory name is on the whitelist (all of them without a whitelist), in directory order with multiplicity.", "quantifier": "every WAD and whitelist", "why_tests_cant": "All directories and whitelists.", "anchors": ["src/wad/mod.rs: read_directory"]}
{"id": "C58", "title": "First failing entry decides the error", "statement": "If several directory entries or textures are unreadable, the returned error is that of the first one in directory order, independent of the order in which parallel workers finish.", "quantifier": "every WAD and every schedule", "why_tests_cant": "All schedules.", "anchors": ["src/wad/mod.rs: read_directory, read_mip_data"]}
{"id": "C59", "title": "Parallel texture reading is schedule independent", "statement": "The list of textures returned does not depend on how the parallel workers are scheduled and is ordered like the directory.", "quantifier": "every schedule of the per-texture tasks", "why_tests_cant": "All interleavings.", "anchors": ["src/wad/mod.rs: read_mip_data"]}
{"id": "C60", "title": "Palette files", "statement": "Reading a palette succeeds exactly when the file has at least 768 bytes; colour i is bytes 3i, 3i+1, 3i+2; further bytes are ignored.", "quantifier": "every byte string", "why_tests_cant": "All contents.", "anchors": ["src/wad/palette.rs: parser, read_palette", "src/wad/color.rs"]}
{"id": "C61", "title": "Conversion to RGB", "statement": "Converting an indexed texture to RGB maps each pixel through the palette, level by level, keeping length and order and never indexing outside the palette; the texture's own palette takes precedence over the supplied one; it fails exactly when there is neither.", "quantifier": "every texture and palette", "why_tests_cant": "All pixel data.", "anchors": ["src/wad/mod.rs: TextureIndexed::into_rgb", "src/wad/mip_data.rs: MipDataRGB::from_indexed"]}
{"id": "C62", "title": "Address arithmetic", "statement": "Reading a WAD behaves the same with and without overflow checks as long as no 32-bit address or size computation overflows; with overflow checks an overflow aborts, without them the address wraps modulo 2^32.", "quantifier": "every WAD", "why_tests_cant": "All header values.", "anchors": ["src/wad/mod.rs: read_directory, read_mip_data"]}
{"id": "C63", "title": "Unknown WAD magic and bad level count abort", "statement": "Reading aborts if the magic is neither 'WAD2' nor 'WAD3' or if the number of levels is outside 1..4, and this does not depend on the rest of the file.", "quantifier": "every file of at least 12 bytes, every level count", "why_tests_cant": "All magics.", "anchors": ["src/wad/mod.rs: read_textures"]}
{"id": "C64", "title": "Enum codes", "statement": "Converting a visual, collision or class type to its integer code and back gives the same value; every other code aborts; codes of all enumerations (also entity, component and metadata kinds) distinguish the kinds, and are 0, 1, 2 in the order none/mesh, none/convex/concave, base/point/solid class, placeholder/class/prefab, none/script, base/color/size.", "quantifier": "all 64-bit codes and all values", "why_tests_cant": "2^64 codes.", "anchors": ["src/game_data/types/visual_type.rs", "src/game_data/types/collision_type.rs", "src/game_data/forge/entity.rs: ClassType", "src/game_data/types/entity_type.rs", "src/game_data/types/component_type.rs", "src/game_data/forge/metadata.rs"]}
{"id": "C65", "title": "FGD text is assembled in order", "statement": "The FGD text is exactly the prescribed one, character by character: the name comment, one include line per include and one block per definition in order, each block with class keyword, all metadata (base class list, colour, sizes min then max) and all properties in order, each property with its kind word, value, rows and descriptions. Printing succeeds exactly if such a text exists. Adding definitions at the end only appends text.", "quantifier": "every game data value", "why_tests_cant": "All lists.", "anchors": ["src/game_data/forge/game_data.rs: to_string", "src/game_data/forge/entity.rs: to_string"]}
{"id": "C66", "title": "FGD text determines the definitions", "statement": "Two game data files whose FGD texts are equal have the same name, the same includes and, one by one, definitions with the same class type, class name, description, shown metadata and properties with the same name, kind word, shown value and printed descriptions, provided names, descriptions and displayed floats contain no quotes or line breaks, class names no '=', property names no '(', base class names and displayed floats no ',' or ')'. Without the provisos quoting can be forged.", "quantifier": "all definitions", "why_tests_cant": "Injectivity over an infinite set.", "anchors": ["src/game_data/forge/entity.rs: to_string", "src/game_data/forge/property.rs: to_string"]}
{"id": "C67", "title": "Base class list", "statement": "The base metadata prints the base class names joined by ', '.", "quantifier": "every list of names", "why_tests_cant": "All lists; the failing case has an empty leading name.", "anchors": ["src/game_data/forge/metadata.rs: to_string"]}
{"id": "C68", "title": "Flags are printed bit by bit", "statement": "Flag number i is printed with value 2^i and with 1 exactly when bit i of the default is set; up to 31 flags never abort; summing the values of the flags printed with 1 gives the default restricted to the declared bits.", "quantifier": "every flag list and default", "why_tests_cant": "All 2^32 defaults and lengths.", "anchors": ["src/game_data/forge/property.rs: to_string"]}
{"id": "C69", "title": "Choice default", "statement": "A choices property prints the value of the choice at the default index and aborts exactly when the default is negative or not less than the number of choices; all choices are printed in order.", "quantifier": "every choice list and default", "why_tests_cant": "All indices.", "anchors": ["src/game_data/forge/property.rs: to_string", "src/game_data/forge/choice.rs"]}
{"id": "C70", "title": "Colours print as 0..255", "statement": "In exact arithmetic colour components in [0,1] print as the integer part of 255 times the component, hence as integers between 0 and 255, monotonically.", "quantifier": "every colour", "why_tests_cant": "Continuum.", "anchors": ["src/types/color.rs: to_string"]}
{"id": "C71", "title": "Exported definitions and loaded properties agree", "statement": "A property value printed as the default in the FGD, when written unchanged into a map entity of that class, is loaded as the declared default.", "quantifier": "every declared property", "why_tests_cant": "All property kinds and values.", "anchors": ["src/game_data/forge/property.rs: to_string", "src/scene_tree/mod.rs: get_entity_properties"]}
{"id": "C72", "title": "A face without direction spoils its brush", "statement": "A face whose three points are collinear (its direction is not a number) counts for every other face of the brush as meeting it in a corner inside the brush: every face that is built has a centre and corners that are not numbers, and so have the brush and, without 'origin', the whole entity.", "quantifier": "every entity, brush, face; any arithmetic following the NaN rules of IEEE 754", "why_tests_cant": "NaN propagation through every face of the brush; all collinear triples and all other faces.", "anchors": ["src/geo_builder/brush_plane/vertices.rs: intersect_brush_planes, vertex_in_hull", "src/geo_builder/brush_plane/mod.rs: build", "src/geo_builder/entity/mod.rs: build"]}
{"id": "C73", "title": "Tangents of a face", "statement": "In exact arithmetic, every vertex of a face in Valve layout has its first texture axis as tangent and the reversed orientation of (outward direction, first axis, second axis) as sign. Every vertex of a face in standard layout has as tangent the first axis of the coordinate plane it is projected onto, turned around the unit normal by the rotation of the face (in the sense given by the side the face shows), of length one, and as sign that side times the sign of the second scale.", "quantifier": "every entity, brush, face with three points not on a line, texture layout, rotation, scale; real arithmetic", "why_tests_cant": "All directions and angles; three projection cases with ties, quaternion arithmetic.", "anchors": ["src/geo_builder/brush_plane/tangents.rs: vertex_tangent, standard_tangent, valve_tangent"]}
{"id": "C74", "title": "The tangent frame follows the texture", "statement": "In exact arithmetic, with positive scales, of two corners of a face the one further along the tangent has the larger first texture coordinate, and the one further along normal x tangent x sign has the smaller second texture coordinate.", "quantifier": "every entity, brush, face, pair of corners; real arithmetic", "why_tests_cant": "Relates two independent computations (tangents.rs and uvs.rs) over all directions, rotations and scales.", "anchors": ["src/geo_builder/brush_plane/tangents.rs: vertex_tangent", "src/geo_builder/brush_plane/uvs.rs: vertex_uv"]}
{"id": "C75", "title": "Token paths lead to what the line became", "statement": "The tokens with a path are exactly the opening braces, properties and faces. A path leads to an existing part of the right kind (for a face line, to the very face read from it); right after its token it leads to the newest part; and equal tokens share the path of the last of them.", "quantifier": "every token list the parser accepts", "why_tests_cant": "Paths are index tuples computed from lengths of growing lists; any of unboundedly many lines could be off by one.", "anchors": ["src/map/quake/parser.rs: run, TokenPath"]}
{"id": "C76", "title": "Files are read as UTF-8, and saved definitions read back", "statement": "A map file is accepted only if its bytes are UTF-8; the text used is the one whose UTF-8 encoding the file is; any other file is reported as an error, never a panic. Game definitions saved to a file read back as exactly the printed text, and saving to a file that cannot be written is an error.", "quantifier": "every byte sequence, every text, every game definition", "why_tests_cant": "Byte sequences are unbounded; overlong, surrogate and truncated encodings are rare in tests.", "anchors": ["src/lib.rs: run, run_diff", "src/game_data/forge/game_data.rs: save"]}
{"id": "C77", "title": "A byte order mark or indentation drops the line", "statement": "The tokenizer looks only at the first character of a line: a line that is preceded by a byte order mark or by a space or tab is never recognised, so a map file starting with a byte order mark loses its first line.", "quantifier": "every text", "why_tests_cant": "Any editor may add a mark or indentation anywhere; tests contain neither.", "anchors": ["src/lib.rs: run", "src/map/quake/tokenizer.rs: run"]}
{"id": "C78", "title": "Brushes are watertight", "statement": "In exact arithmetic, if the planes of a brush bound a convex body and are not borderline for the tolerances of the program (any three normals are dependent or clearly independent; any point where three planes meet is inside or more than 0.001 outside), then every directed side of every triangle built for the brush occurs in the opposite direction as side of another triangle of the brush, and if no plane is given twice, it occurs only once: the triangles form a closed, consistently oriented surface.", "quantifier": "every brush, entity and texture table; real arithmetic", "why_tests_cant": "Each face is cut out independently of the others; that neighbouring faces agree on their common edge is a fact about all polytopes.", "anchors": ["src/geo_builder/brush/mod.rs: build", "src/geo_builder/brush_plane/mod.rs: build", "src/geo_builder/brush_plane/vertices.rs: intersect_brush_planes, vertex_in_hull"]}
{"id": "C79", "title": "The hull of a convex collision shape is the brush", "statement": "In exact arithmetic, for every entity, the convex collision shapes correspond one to one and in order to its brushes, and if the planes of a brush bound a convex body and are not borderline for the tolerances (as in C78), then the convex hull of the points of its shape is exactly the set of points on the inner side of all planes of the brush: the physics body is neither larger nor smaller than the brush that was drawn.", "quantifier": "every entity and texture table; real arithmetic; every point of space", "why_tests_cant": "That a bounded intersection of half-spaces is the hull of its corners, and that the program finds all of them, concerns infinitely many points and all brushes.", "anchors": ["src/scene_tree/mod.rs: get_entity_convex_collision", "src/geo_builder/brush/mod.rs: build", "src/geo_builder/brush_plane/vertices.rs"]}
{"id": "C80", "title": "Collision meshes and visible meshes are closed", "statement": "In exact arithmetic, for every entity all of whose brushes meet the conditions of C78: every directed side of a triangle of its concave collision mesh occurs in the opposite direction in that mesh; and if none of its textures is blacklisted, every directed side of a triangle in any of its visible surfaces occurs in the opposite direction in one of them. Splitting by texture and merging equal vertices opens no cracks.", "quantifier": "every entity, texture table, brush definition and blacklist; real arithmetic", "why_tests_cant": "Concerns all triangles of all brushes at once, after splitting by texture, deduplication and index shifting.", "anchors": ["src/scene_tree/mod.rs: get_entity_concave_collision", "src/scene_tree/mod.rs: gather_entity_geometry, filter_vertices", "src/geo_builder/brush/mod.rs: build"]}
{"id": "C81", "title": "Where corners are in single precision", "statement": "With IEEE single-precision rounding (u = 2^-24), for every brush whose faces are of moderate size (coordinates at most M, 1 <= M <= 2^25) and not nearly collinear (area of the parallelogram of the three points at least M^2/k, 1 <= k <= 512), every finite corner the program produces within that range is inside the brush up to 0.001 + 1200*k*u*M: it is at most that far in front of the exact plane of any face. Moreover it lies on its own face and on two further faces of the brush up to 2000*k*u*M/det, where det >= 0.000999 is, up to 3240*k*u, the determinant of the three exact unit normals.", "quantifier": "every brush, face, texture table and entity; every arithmetic following the rounding rules of IEEE 754 single precision", "why_tests_cant": "Rounding errors accumulate through normalising, Cramer's rule and recentring; the bound is over all brushes and cannot be reached by sampling.", "anchors": ["src/geo_builder/brush_plane/vertices.rs: intersect_brush_planes, vertex_in_hull", "src/geo_builder/brush_plane/mod.rs: build", "src/map/quake/types/brush_plane.rs: normal, dist"]}
{"id": "C82", "title": "Equality of definition entries", "statement": "Two game definition entries (forge::Entity) compare equal exactly if they have the same class name, whatever their class type, metadata, description and properties. The comparison is an equivalence relation, equal entries feed the same data to every hasher, and entries of different class names feed different names.", "quantifier": "every pair of entries, every hash function", "why_tests_cant": "The contract between Eq and Hash is about all pairs of values.", "anchors": ["src/game_data/forge/entity.rs: eq, hash"]}
{"id": "C83", "title": "Centres in single precision", "statement": "With IEEE single-precision rounding (u = 2^-24): if the n corners of a face (1 <= n <= 2^20) are finite and at most M >= 1 in each coordinate, the centre of the face is finite, at most 1.1 M, and differs from the exact mean of the corners by at most (n+8)uM in each coordinate. The centre of a brush is finite and within (n+3)uM of the exact mean of its n face centres, and the centre of an entity without 'origin' within (n+3)uM of the exact mean of its n brush centres (M <= 2^80).", "quantifier": "every face, brush and entity that builds; every arithmetic following the rounding rules of IEEE 754 single precision", "why_tests_cant": "Summation error grows with the number of corners; the bound is over all lists.", "anchors": ["src/geo_builder/brush_plane/mod.rs: build", "src/geo_builder/brush/mod.rs: build", "src/geo_builder/entity/mod.rs: build"]}
{"id": "C84", "title": "Normals in single precision", "statement": "With IEEE single-precision rounding (u = 2^-24), for brushes whose faces have finite points of size at most M <= 2^25 spanning a parallelogram of area at least M^2/k (k <= 512): without _phong = 1 every vertex normal is finite, within 175ku of the exact outward unit normal of its face in each coordinate, and of length 1 up to 30u. With _phong = 1 every vertex normal is finite, of length 1 up to 30u (even after near-cancellation in the sum), and r|S| is within 2600ku of S in each coordinate, where r is the normal and S the sum of the exact unit normals of the face and of one, both or none of two further faces of the brush; both take part if _phong_angle is absent or not a number.", "quantifier": "every face, brush and entity that builds; every arithmetic following the rounding rules of IEEE 754 single precision", "why_tests_cant": "Cancellation depends on continuous angles between faces.", "anchors": ["src/geo_builder/brush_plane/normals.rs: vertex_normal, phong_normal", "src/geo_builder/brush_plane/mod.rs: build, build_plane_vertex"]}
{"id": "C85", "title": "Triangles tile the surface", "statement": "In exact arithmetic, for a proper convex brush (the one of C78): the triangles of a face with at least three corners cover exactly the part of the face's plane that lies in the brush, and no point is strictly inside two triangles of the face. The triangles of all faces of the brush together are exactly the boundary of the brush, also when some of its planes only touch the body in an edge or a corner.", "quantifier": "every proper brush, every face, every point of space", "why_tests_cant": "A statement about every point of a continuous surface and every convex shape.", "anchors": ["src/geo_builder/brush_plane/mod.rs: build", "src/geo_builder/brush/mod.rs: build"]}
{"id": "C86", "title": "Nested positions in single precision", "statement": "With IEEE single-precision rounding (u = 2^-24), if the centres of all entities are finite and of size at most M <= 2^80, then for an entity node whose path from the top level has n origins: the exact sum of the origins differs from the entity's centre by at most 2nuM in each coordinate, and the sum computed in single precision from the top level on is finite and differs by at most 4nuM (n <= 2^20).", "quantifier": "every map that builds, every entity node at any depth; every arithmetic following the rounding rules of IEEE 754 single precision", "why_tests_cant": "Depends on all nesting depths and all magnitudes.", "anchors": ["src/scene_tree/mod.rs: build_entity"]}
{"id": "C87", "title": "What is drawn is what the map says", "statement": "For a map that builds: the triangles of all mesh surfaces in the scene are, corner by corner, exactly the triangles of the faces that are to be shown, that is of the faces of brushes of entities connected to the worldspawn whose definition (or worldspawn layer) asks for a mesh and whose textures are not blacklisted. With exact arithmetic and proper brushes a point lies on a triangle of the scene iff it lies on a shown face that has an area; if all faces are to be shown, the picture is exactly the union of the boundaries of all brushes of the map. (Points are the vertex values stored in the surfaces, not multiplied by node transforms.)", "quantifier": "every map text, configuration, texture table, blacklist and order of the texture groups", "why_tests_cant": "Depends on all maps and on all points of space.", "anchors": ["src/lib.rs: run", "src/scene_tree/mod.rs: build_entity, build_worldspawn_layer, get_brush_entity_visual_geometry, build_brush_entity_texture_surface", "src/geo_builder/mod.rs: run"]}
{"id": "C88", "title": "What is solid is what the map says", "statement": "For a map that builds: the convex collision shapes of the scene are exactly those of the brushes of entities connected to the worldspawn whose definition (or worldspawn layer) asks for convex collision, and their points are the corners of the brush; the triangles of the concave shapes are, corner by corner, exactly the face triangles of the brushes for which concave collision is asked. The texture blacklists play no role. With exact arithmetic and proper brushes the hulls of the convex shapes fill exactly the union of the brushes with convex collision, and the concave shapes cover exactly the union of the boundaries of the brushes with concave collision.", "quantifier": "every map text, configuration, texture table and order of the texture groups", "why_tests_cant": "Depends on all maps and on all points of space.", "anchors": ["src/lib.rs: run", "src/scene_tree/mod.rs: get_entity_collision_geometry, get_entity_convex_collision, get_entity_concave_collision, get_worldspawn_layer_collision_geometry"]}
{"id": "C89", "title": "The printed comparison", "statement": "run_diff on two text files prints two fixed lines and then a report whose lines are exactly: the header, under `added` the lines of the second file and under `removed` the lines of the first file that are not in a longest common subsequence of the files without their last lines, in file order, each with its kind and its contents quoted. The text of the report determines what is reported, whatever characters the maps contain. Contents of ordinary characters that are shown are quoted as they are, and a character that is not shown is not written, unless it is one that escapes are written with. It returns an error, having printed nothing, exactly if one of the files is unreadable or not UTF-8, and aborts exactly if a file has no lines or a line starting with a quote has fewer than three quotes.", "quantifier": "all pairs of files, all contents, every choice of characters the standard library shows unescaped", "why_tests_cant": "All files; escaping must be unambiguous for every character.", "anchors": ["src/lib.rs: run_diff", "src/map/quake/tokenizer.rs: Token, Property, Diff (derived Debug), diff_tokens"]}
{"id": "C90", "title": "Boxes on the grid come out exactly", "statement": "In IEEE single precision a brush whose planes are the six sides of an axis-parallel box with corners on a grid (a power of two steps per unit, up to 2^30; at most 2^20 steps from the origin; in any order, possibly repeated) is built without error, and every face has exactly the four corners of its side, with no rounding, two triangles, the exact middle of the side as centre and, without _phong, the exact outward unit vector as the normal of every vertex. If every side is listed once, the centre of the brush is exactly the middle of the box. The three points of a plane may be any grid points spanning an area which is a power of two steps, or, if vectors are divided by their length, any area below 4096 steps. If moreover the first edge of a plane runs along an axis and atan2 orders the quadrants correctly, the corners are listed one after the other clockwise as seen from outside, so that both triangles face outward.", "quantifier": "all boxes, grids, plane orders, choices of the three points of each plane, entities and textures, every sorting and hashing platform", "why_tests_cant": "Boxes are most of a map; that none of the millions of combinations of corners, grids and plane orders is off by one rounding cannot be sampled.", "anchors": ["src/geo_builder/brush_plane/vertices.rs: intersect_brush_planes, vertex_in_hull", "src/geo_builder/brush_plane/mod.rs: build", "src/geo_builder/brush/mod.rs: build", "src/map/quake/types/brush_plane.rs: normal, dist"]}
{"id": "C91", "title": "A map file of boxes is drawn exactly", "statement": "Take a map file in which the face lines of every brush give the six sides of an axis-parallel box in decimal numbers that are grid points (C90), the first edge of each along an axis. Then every brush is read as exactly this box. The map loads if it has one worldspawn, its entities have classnames and readable group numbers, and groups have no loops. If all its faces are to be shown and all entities are reached, the points of the triangles in the scene are, in single precision, exactly the points on the sides of the boxes. Without the last two conditions they are exactly the points on the shown sides.", "quantifier": "every such text (any spacing, numbers in any decimal form up to 64 characters, any trailing data, comments), configuration and map iteration order", "why_tests_cant": "All coordinates, texts and arrangements; a rounding error in the last place or a missing or extra triangle in one case would go unnoticed in tests.", "anchors": ["src/lib.rs: run", "src/map/quake/types/brush_plane.rs: new", "src/geo_builder/brush_plane/mod.rs: build", "src/scene_tree/mod.rs: build_brush_entity_texture_surface"]}
{"id": "C92", "title": "Exactly which maps can be loaded", "statement": "With enough stack (one call per entity) loading succeeds exactly if: the file can be read as text; it has the structure of a map with readable property and face lines; exactly one entity is a worldspawn; every face with plain UVs that has a corner has a normal with a largest component (not NaN); every entity reached from the top level has a classname and, if there is a definition for it, integer _tb_id and _tb_group; and none of these is nested in itself. The entities of a text are exactly those it lists, line by line and word by word.", "quantifier": "every file content, configuration, map iteration order and stack size", "why_tests_cant": "All inputs; that nothing else can make a load fail (no index out of range, no missing vertex) cannot be seen from examples.", "anchors": ["src/lib.rs: run", "src/layer_filter/mod.rs: run", "src/scene_tree/mod.rs: run"]}
{"id": "C93", "title": "Collision of a map file of boxes is exact", "statement": "In single precision the convex collision shape of an axis-parallel box on a grid (C90) has as its points exactly the eight corners, each once, and, if the brush has six faces, as its centre exactly the middle of the box. The convex shapes of the scene are those of the brushes with convex collision; together they fill exactly these boxes. The triangles of concave shapes cover exactly the sides of the boxes with concave collision. For map files whose brushes are boxes written in decimal numbers (C91) this holds from the text on.", "quantifier": "every such text, configuration and map iteration order", "why_tests_cant": "All coordinates and arrangements; a corner that is kept twice or lost by comparison of rounded numbers would not show in tests.", "anchors": ["src/lib.rs: run", "src/scene_tree/mod.rs: get_entity_convex_collision, get_entity_concave_collision", "src/geo_builder/brush_plane/mod.rs: build"]}
{"id": "C94", "title": "What a load prints", "statement": "While it works, a load writes to the standard output and the standard error. A load that succeeds writes nine fixed lines, of which the sixth has the number of worldspawn brushes in no layer; then, for the worldspawn, for the two layers in the order of the map iteration, and for each entity without a group in file order, what there is to say about it. For an entity that is: two equal lines if its classname has no definition, otherwise the kind of visual geometry of a brush entity and a line for triangle mesh collision; then everything about the entities in its group, in order; then a line on the standard error if the classname is not among the forge definitions. For a layer: a line if there is not exactly one layer definition for its texture, otherwise one line for triangle mesh collision if there are no triangles and two if there are. Classnames and textures are quoted such that they can be read back. So a classname is warned about exactly if some reached entity has it and it has no definition, and nothing else goes to the standard error. A load that fails has written the first two lines if the file is not text, three if a line that starts with a quote has less than three, four if the text is not a map, five if a face has no largest normal component or there is not exactly one worldspawn, all nine otherwise.", "quantifier": "every file, configuration, map iteration order and quoting style of the standard library", "why_tests_cant": "Output is rarely tested; lines come from eight functions, and which appear depends on nesting, definitions and layers together.", "anchors": ["src/lib.rs: run", "src/scene_tree/mod.rs: run, build_entity, build_worldspawn_layer, get_entity_properties, get_entity_visual_geometry, get_brush_entity_visual_geometry, get_entity_collision_geometry, get_entity_concave_collision", "src/layer_filter/mod.rs: run", "src/geo_builder/mod.rs: run", "src/map/quake/tokenizer.rs: run", "src/map/quake/parser.rs: run"]}
{"id": "C95", "title": "What reading a WAD file prints", "statement": "A read that succeeds writes a line with the time for the header, the directory and the texture headers; then one line for each texture it reads and no other, in whatever order the tasks start; then a line with the time for the data. The line about a texture holds the offset, both sizes, the kind, the compression byte and the name of its directory entry as they are in the file, and all of them can be read back from it. A read that fails has written no line if the file cannot be opened or is shorter than 12 bytes, one if the directory cannot be read, two if a texture header cannot be read, and otherwise three and a line for each texture. Converting a texture writes one line, exactly if both the texture and the caller have a palette. The lines do not change any result.", "quantifier": "every file, whitelist, number of levels, order of the tasks, durations and quoting style of the standard library", "why_tests_cant": "Output is rarely tested, and the order of the lines changes from run to run.", "anchors": ["src/wad/mod.rs: read_textures, read_mip_data, into_rgb", "src/wad/entry.rs: Entry"]}
{"id": "C96", "title": "In single precision, faces with their points on a line stop a load", "statement": "In single precision a load aborts while building geometry exactly if a face with plain UVs and any corner at all has a normal that is not finite. If the three points of such a face are on a grid of 2^g steps per unit (g at most 30, at most 2^20 steps from the origin) and lie on a line, every map with the face aborts, wherever the face is. If its points are less than 4096 steps apart, it aborts no map unless they lie on a line. So a map file all of whose plain faces are like that can be loaded exactly if no plain face has its points on a line, there is one worldspawn, all reached entities have classnames, group numbers of entities with definitions are integers, and no group is nested in itself. For edges of 8192 units this is no longer true: the face (0 0 0) (8192 8193 0) (8191 8192 0) has a direction but aborts every load.", "quantifier": "all textures, maps, faces and grids; both usual ways to normalize; any library functions", "why_tests_cant": "The abort depends on how a product is rounded, and on no face that a test map would have.", "anchors": ["src/geo_builder/brush_plane/uvs.rs: standard_uv", "src/geo_builder/brush_plane/tangents.rs: standard_tangent", "src/map/quake/types/brush_plane.rs: normal", "src/lib.rs: run"]}
{"id": "C97", "title": "A change to one entity stays local", "statement": "The node of a top level entity is the same in every two maps (loaded with the same configuration) that contain the entity and have the same entities in its group, in the groups in it and so on; all other entities, their order and its own position do not matter. Its place from the end of the scene is the number of top level entities that follow it. Likewise the worldspawn node and the nodes of layers depend on the worldspawn and its groups only. Removing a top level entity removes its node with everything in it and changes nothing else, and the rest still loads. Adding a top level entity without a group, with a classname, readable group numbers (if its class is declared) and faces whose normals have a largest component (if their texture coordinates are plain) adds one node at its place and changes nothing else, and the map still loads. A text whose braces are all closed followed by the text of another map lists the entities of both, so cutting the text of one top level entity out of a map file has this effect.", "quantifier": "all pairs of maps, configurations, iteration orders and stack sizes", "why_tests_cant": "A statement about pairs of loads: tests compare one scene with one expectation.", "anchors": ["src/lib.rs: run", "src/scene_tree/mod.rs: run, build_entity", "src/layer_filter/mod.rs: run"]}
{"id": "C98", "title": "A load uses only what the map mentions", "statement": "Two configurations for the same map file give the same outcome (nodes, error or abort) if they agree on: the sizes of the textures on faces; whether those textures are blacklisted for brushes and for faces; the first definition of every class in the map (entity type, component, property mode and geometry kinds; its own property table is not used); the names and data of the properties in the first declaration of the class (descriptions, metadata and class type are not used); and the layers for *water0 and *slime0. In particular definitions of classes that are not in the map, other layers, and blacklisted textures that no face has can be appended without effect.", "quantifier": "all pairs of configurations, maps, iteration orders and stack sizes", "why_tests_cant": "A statement about pairs of loads, including those that fail.", "anchors": ["src/lib.rs: run", "src/scene_tree/mod.rs: run, build_entity, get_entity_properties", "src/types/texture.rs: TextureBlacklist"]}
{"id": "C99", "title": "Blacklisting a face texture removes its surfaces and nothing else", "statement": "If a map loads, it also loads after adding textures to the face blacklist, and the scene is the same except that in the worldspawn node and the nodes of entities, at any depth, the surfaces with these textures are missing, and visual nodes without any surface left are missing. Nodes of layers keep their surfaces even if their texture is blacklisted.", "quantifier": "all maps, configurations, lists of added textures, iteration orders and stack sizes", "why_tests_cant": "A statement about pairs of loads and about whole trees.", "anchors": ["src/scene_tree/mod.rs: get_brush_entity_visual_geometry, get_worldspawn_layer_visual_geometry", "src/scene_tree/predicates/texture.rs: unique_not_blacklisted"]}
{"id": "C100", "title": "Texturing never changes the collision or the tree", "statement": "Two maps with the same solids that both load give the same scene apart from visual nodes: the same actors at the same places, with the same types, components and properties, nested alike, and the same collision shapes, point for point and in the same order (layer nodes up to the order in which layers are visited). Same solids means that the faces have the same three points in the same order and the same liquid textures (*water0, *slime0), and that the entities agree on the properties that decide their place or that some class declares. Other textures, texture projections, offsets, rotations, scales, texture sizes, blacklists, undeclared properties such as _phong, and stack sizes do not matter.", "quantifier": "all pairs of maps and configurations, iteration orders and stack sizes, and every arithmetic", "why_tests_cant": "A statement about pairs of loads: tests compare one scene with one expectation.", "anchors": ["src/lib.rs: run", "src/scene_tree/mod.rs: run, build_entity, get_entity_collision_geometry", "src/geo_builder/mod.rs: run"]}
{"id": "C101", "title": "A moved map gives the moved scene", "statement": "If every brush and every origin of a map that loads is moved by the same vector, the changed map loads and gives the same tree: the worldspawn and the top level actors move by that vector, actors nested in others keep their (relative) origins, visual and collision nodes of entities move along, every triangle of every surface and every collision point and centre is moved by it, and all textures, indices, names, types and other properties stay. Layer nodes stay where they are, with their geometry moved. In real arithmetic, for entities that have an origin or brushes, and brushes in which every face has a corner.", "quantifier": "all maps, vectors, configurations, iteration orders and stack sizes; real arithmetic", "why_tests_cant": "A statement about pairs of loads for every displacement; tests compare one scene with one expectation.", "anchors": ["src/lib.rs: run", "src/scene_tree/mod.rs: run, build_entity, build_worldspawn_layer", "src/geo_builder/entity/mod.rs: build"]}
{"id": "C102", "title": "Texture layout and shading never change the triangles", "statement": "Two maps whose faces have the same three points and the same texture names, and whose entities agree on the properties that decide their place or that some class declares, give the same scene whenever both load, up to the attributes of vertices: the same nodes, places, properties and collision shapes, and visual nodes with one surface for the same textures in the same order, each made of the same triangles in the same order with corners at the same places. Texture projections, offsets, rotations, scales, surface flags, colours, the sizes of texture files, undeclared properties such as _phong and _phong_angle, and stack sizes do not matter, although they change which vertices are shared.", "quantifier": "all pairs of maps and configurations, iteration orders and stack sizes, and every arithmetic whose equality is symmetric and transitive", "why_tests_cant": "A statement about pairs of loads: tests compare one scene with one expectation.", "anchors": ["src/lib.rs: run", "src/scene_tree/mod.rs: run, build_entity, build_brush_entity_texture_surface, filter_vertices", "src/geo_builder/brush_plane/mod.rs: build"]}
{"id": "C103", "title": "A turned map gives the turned scene", "statement": "In exact arithmetic, if the points of all faces and all origin properties of a map are turned by a rotation and moved by a vector, the map still loads and gives the same scene, turned and moved: the worldspawn and all top level entities are at the turned and moved place, the places of entities in groups relative to their parents are turned, layer nodes stay at the zero point, every surface has the same triangles in the same order at the turned and moved places, and so have all collision shapes. How textures are laid out on the turned faces does not matter. Every entity is assumed to have an origin or a brush, every brush a face and every face a corner.", "quantifier": "all maps, configurations, rotations, translations, iteration orders and stack sizes, in exact arithmetic", "why_tests_cant": "A statement about pairs of loads and all rotations: tests compare one scene with one expectation.", "anchors": ["src/lib.rs: run", "src/scene_tree/mod.rs: run, build_entity", "src/geo_builder/brush_plane/mod.rs: build", "src/geo_builder/brush_plane/vertices.rs: intersect_brush_planes, vertex_in_hull"]}
{"id": "C104", "title": "The order of entities, brushes and faces in a map does not matter", "statement": "In exact arithmetic, if two maps have the same entities, brushes and faces in a different order, and the first one loads, then so does the second one, and the scenes are the same except for order: the same actors at the same places with the same properties and the same children, the same surfaces with the same textures and the same triangles, the same convex shapes with the same centres and points, and the same triangle meshes for collisions. The worldspawn node is first in both. No corner of a brush may depend on the tolerance of 0.001 (brushes that are proper convex bodies meet this condition).", "quantifier": "all pairs of maps that differ in order only, all configurations, iteration orders and stack sizes, in exact arithmetic", "why_tests_cant": "A statement about pairs of loads and all permutations: tests load one map in one order.", "anchors": ["src/lib.rs: run", "src/scene_tree/mod.rs: run, build_entity, gather_entity_geometry, gather_brush_geometry", "src/geo_builder/brush_plane/mod.rs: build", "src/layer_filter/mod.rs: run"]}
{"id": "C105", "title": "A scaled map gives the scaled scene", "statement": "In exact arithmetic, if all faces and all origins of a map are scaled (and turned and moved), the second map loads if the first one does, and gives the same scene with every position scaled (and turned and moved) and every relative position scaled (and turned). No corner of a brush of either map may depend on the tolerance of 0.001, which does not scale; when the map is not made smaller it is enough that the original brushes meet this. Without the condition it is wrong: a cube with a corner cut off gets the corner back when it is made small enough.", "quantifier": "all maps that load, all configurations, rotations, positive scales and translations, in exact arithmetic", "why_tests_cant": "A statement about pairs of loads and all scales: tests load one map in one size.", "anchors": ["src/lib.rs: run", "src/scene_tree/mod.rs: run, build_entity, gather_entity_geometry, gather_brush_geometry", "src/geo_builder/brush_plane/mod.rs: build", "src/layer_filter/mod.rs: run"]}
{"id": "C106", "title": "A map moved together with its textures gives the moved scene, vertex by vertex", "statement": "In exact arithmetic, let a second map be the first one turned, scaled and moved with texture lock: points and origins are taken to their new places; on faces with Valve texture axes the axes are turned, and offsets and scales are such that every point keeps its place on the texture; faces with standard UVs are only allowed if nothing is turned, and their offsets and scales are such that every point keeps its place on the texture. Then the second map loads if the first one does and gives the same scene, moved: every surface has the same number of vertices, the same indices, texture coordinates and colours, its positions are moved, and its normals (flat or smoothed) and tangents are turned. Collision shapes and the places of nodes are as in C105. If the scale is not 1, no corner of a brush may depend on the tolerance of 0.001. Every face with scales other than zero can be moved in this way.", "quantifier": "all maps that load, all configurations, rotations (if no face has standard UVs), positive scales and translations, in exact arithmetic", "why_tests_cant": "A statement about pairs of loads and all motions: tests look at one map in one place.", "anchors": ["src/lib.rs: run", "src/scene_tree/mod.rs: run, build_entity, gather_entity_geometry, gather_brush_geometry, filter_vertices", "src/scene_tree/predicates/vertex.rs: unique", "src/geo_builder/brush_plane/mod.rs: build", "src/geo_builder/brush_plane/normals.rs: vertex_normal", "src/geo_builder/brush_plane/tangents.rs: vertex_tangent", "src/geo_builder/brush_plane/uvs.rs: vertex_uv"]}
{"id": "C107", "title": "Reading some textures of a WAD file", "statement": "If a WAD file can be read, then reading it with a list of names gives exactly the textures whose directory names are in the list, in the same order and unchanged, and never fails. Two lists that can be read can be read together, although another texture may be broken. The names that count are those of the directory, with upper and lower case: there is a file whose textures are not found by the names they have after reading, since those are taken from the texture headers and lower-cased.", "quantifier": "every WAD file, list of names, number of levels and schedule", "why_tests_cant": "All files and lists.", "anchors": ["src/wad/mod.rs: read_textures, read_directory, read_mip_textures, read_mip_data"]}
{"id": "C108", "title": "Faces do not vanish in single precision", "statement": "Every face of a brush with whole coordinates that gets triangles in exact arithmetic gets triangles in single precision. This is false: a tetrahedron with corners on the 16-unit grid, at most 336 units from the origin, shows all four faces in exact arithmetic and none in single precision, and no error is reported. It holds for boxes, and for brushes near the origin every face of which has three corners with a large enough angle between their planes (C116).", "quantifier": "every brush with whole coordinates, entity and texture sizes; both ways of normalizing a vector", "why_tests_cant": "The failing brushes are rare and depend on rounding; the positive part is about all boxes.", "anchors": ["src/geo_builder/brush_plane/vertices.rs: intersect_brush_planes, vertex_in_hull", "src/geo_builder/brush_plane/mod.rs: build", "src/geo_builder/brush/mod.rs: build"]}
{"id": "C109", "title": "Brushes stay closed in single precision", "statement": "If every triangle side of a brush with whole coordinates is, in exact arithmetic, also a side in the opposite direction, the same holds in single precision. This is false: a tetrahedron with corners on the 16-unit grid, at most 48 units from the origin, is closed in exact arithmetic, but in single precision one of its faces has no corner position in common with the other faces. It holds for boxes whose faces start with an edge along an axis.", "quantifier": "every brush with whole coordinates, entity and texture sizes; both ways of normalizing a vector", "why_tests_cant": "The gaps are of the size of rounding errors and depend on the order in which planes are intersected; the positive part is about all boxes.", "anchors": ["src/geo_builder/brush_plane/vertices.rs: intersect_brush_planes, vertex_in_hull", "src/geo_builder/brush_plane/mod.rs: build", "src/geo_builder/brush/mod.rs: build"]}
{"id": "C110", "title": "Default values are neutral", "statement": "Defining a class that has no other definition with default data, as a point or as a brush, gives the same result for every load as not defining it, and so does adding a default layer. The default WAD header and directory entry are what zero bytes are read as. The default definition entries print fixed texts and the default colour is white.", "quantifier": "every configuration, map text, position in the lists of definitions and class name; all bytes that follow", "why_tests_cant": "The effect of a definition is spread over five lookups for every entity; a test fixes one map.", "anchors": ["src/game_data/types/point_data.rs: Default for PointData", "src/game_data/types/brush_data.rs: Default for BrushData", "src/game_data/types/worldspawn_layer.rs: Default for WorldspawnLayer", "src/wad/header.rs: Default for Header", "src/wad/entry.rs: Default for Entry", "src/game_data/forge/entity.rs: Default for Entity", "src/types/color.rs: Default for Color"]}
{"id": "C111", "title": "What is drawn is solid", "statement": "If everything the game data gives a mesh has concave collision, every triangle that is drawn is also a triangle of collision, corner by corner. If everything with concave collision has a mesh and the blacklists are empty, every triangle of concave collision is drawn. With convex collision the corners of every drawn triangle are corners of one convex shape, and in exact arithmetic every drawn point of proper brushes is in a solid.", "quantifier": "every configuration, map text that loads, iteration order and arithmetic with lawful equality; for the last part all maps of proper brushes in exact arithmetic", "why_tests_cant": "Relates two independently built outputs over all maps, including brushes taken apart into layers.", "anchors": ["src/lib.rs: run", "src/scene_tree/mod.rs: get_entity_visual_geometry, get_entity_collision_geometry, get_entity_concave_collision, get_worldspawn_layer_visual_geometry, get_worldspawn_layer_collision_geometry"]}
{"id": "C112", "title": "Names of textures in configurations, maps and WAD files", "statement": "Sizes and blacklist entries of names that are not the lower-case form of a word have no effect, whether the map loads, fails or aborts; so, if lower-case forms have no capital letters, names with a capital letter can be listed without any effect. A face that names a texture of a WAD file in any ASCII letter case has a known texture and the size stored in the file, if the texture info has the textures under the names they were read with.", "quantifier": "every configuration, map text, iteration order and platform; every WAD file written from textures, task schedule and face line", "why_tests_cant": "Quantifies over all names and all maps and relates two parsers that lower-case on their own.", "anchors": ["src/map/quake/types/brush_plane.rs: BrushPlane::new", "src/wad/mip_texture.rs: parser", "src/scene_tree/mod.rs: get_brush_entity_visual_geometry", "src/geo_builder/brush_plane/mod.rs: build", "src/lib.rs: run"]}
{"id": "C113", "title": "Records of WAD files have a fixed size", "statement": "The parser of a WAD header reads 12 bytes, of a directory entry 32, of a texture header 40, of a colour 3, of a palette 768 and of a mip level as many as asked for: with fewer bytes it fails, with at least as many it succeeds with a value determined by those bytes and leaves all others. A mip level is its bytes; colour i of a palette has the bytes 3i, 3i+1 and 3i+2.", "quantifier": "every sequence of bytes and everything that follows it", "why_tests_cant": "Quantifies over all inputs of the public parsers, including lengths no file reader passes to them.", "anchors": ["src/wad/palette.rs: parser", "src/wad/mip_level.rs: parser", "src/wad/header.rs: parser", "src/wad/entry.rs: parser", "src/wad/mip_texture.rs: parser", "src/wad/color.rs: parser"]}
{"id": "C114", "title": "Sorting corners is well defined", "statement": "In single precision, for every brush of at most 2048 faces whose first points have finite coordinates of at most 2^40, and every face of it (also if faces of the brush have no direction, or edges so short or long that normalizing gives infinities): either the angles of all corners of the face about their mean are NaN or none is. So the comparison passed to sort_by is consistent as its documentation asks (reversing gives the opposite, not-greater is transitive), newer standard libraries cannot abort in it, and the corners come out in order of decreasing angle. A single NaN among different angles would make the comparison inconsistent.", "quantifier": "all brushes of at most 2048 faces, all coordinates up to 2^40 in absolute value, all faces, both ways to normalize, all atan2 that give NaN exactly for NaN", "why_tests_cant": "A comparison that answers Equal for NaN is inconsistent only for particular mixtures of corners; tests with ordinary maps never produce a NaN, and whether sort_by notices depends on the version of the standard library and the number of corners.", "anchors": ["src/geo_builder/brush_plane/mod.rs:65-98", "src/geo_builder/brush_plane/vertices.rs:5-34"]}
{"id": "C115", "title": "Texture coordinates of boxes on a grid in single precision", "statement": "For a side of a box with corners on a grid (as in C90), a texture whose width and height are powers of two, scales that are plus or minus powers of two and offsets that are not tiny or huge, the texture coordinates computed in single precision are the numbers nearest to the exact coordinates (position / (size * scale) + offset / size): there is a single rounding. They are exact if the offset is a whole number of grid steps in texels. So textures continue from box to box: where a corner is a whole number k of scaled texture widths further than another, on the same or another box, the coordinates differ by exactly k, and they agree where corners meet. This holds for sides without texture axes (rotation zero) and for texture axes along the axes of the grid. The tangent and its sign are exact as well.", "quantifier": "every such box, side, texture size 2^0 to 2^20, scale 2^-20 to 2^20 of either sign, finite offset that is zero or between 2^-60 and 2^60 in absolute value; every math library in which turning by the angle zero changes no value", "why_tests_cant": "Tests compare a few coordinates with a tolerance; exactness for all positions, sizes and scales, and seamlessness between separate brushes, needs the error of every step to be shown to be zero.", "anchors": ["src/geo_builder/brush_plane/uvs.rs:14-69", "src/geo_builder/brush_plane/tangents.rs:5-55", "src/geo_builder/brush_plane/mod.rs:60-150", "src/types/texture.rs:18-20"]}
{"id": "C116", "title": "No corner of a small brush is lost in single precision", "statement": "Let all faces of a brush have their points on a grid of at most 2^20 steps per unit, at most 2048 steps apart and not on a line, with the first point at most R from the origin. A point x is a true corner of a face if it is at most R from the origin, the planes of the face and of two further faces meet there, it is outside of no face, and R is at most 64 times the volume spanned by the three unit normals. The brush is built without error. For every true corner single precision computes an intersection point which passes all tests, within 1/2000 of a unit in every coordinate. The built face has a corner that near (plus the rounding of the way to the centre of the face and back), and at least as many corners as there are true corners apart by more than 1/1000. So a face with three such corners is shown.", "quantifier": "every such brush, R at least 1 (and so at most 64), face and true corner, with any texture, entity and number of faces; both ways of normalizing a vector; every library", "why_tests_cant": "The claim is about rounding errors that accumulate in normals, distances, determinants and the test against 0.001, for all sizes and angles; failing brushes (C108) are rare, and a test sees single brushes only.", "anchors": ["src/geo_builder/brush_plane/vertices.rs: intersect_brush_planes, vertex_in_hull", "src/geo_builder/brush_plane/mod.rs: build", "src/map/quake/types/brush_plane.rs:176-190"]}
{"id": "C117", "title": "Exactly the true corners of a clear brush in single precision", "statement": "Let a brush have at most 1024 faces with points as in C116, R between 1 and 64, and let a face have no doubtful corners: for any two planes of the brush, the volume spanned by their unit normals and that of the face is at most 1/2000, or the three planes meet in a true corner (as in C116), or they meet in a point that is at least 1/64 of a unit outside of some face and whose distance from the origin is at most 1000 times that volume. Then every corner of the built face is finite and within 1/2000 of a unit of a true corner in every coordinate, and every true corner is that near to a corner of the built face. Corners built for two such faces at a shared true corner are at most 1/1000 of a unit apart. If besides only one pair of planes meets the face at each true corner, and the true corners are more than 1/1000 apart, then the built corners are the true corners, each once, and there are two triangles less than corners.", "quantifier": "every such brush, face and true corner, with any texture and entity; both ways of normalizing a vector; every library and stable sort", "why_tests_cant": "Lost, doubled or extra corners depend on rounding errors of several steps compared to 0.001; a test sees single brushes, and extra corners far outside would be seen only for particular angles.", "anchors": ["src/geo_builder/brush_plane/vertices.rs: intersect_brush_planes, vertex_in_hull", "src/geo_builder/brush_plane/mod.rs: build", "src/map/quake/types/brush_plane.rs:176-190"]}
{"id": "C118", "title": "Corners of clear faces follow the outline clockwise in single precision", "statement": "Let a face of a brush be as in the last part of C117 (no doubtful corners, one pair of planes at each true corner, true corners more than 1/1000 apart), with at most 256 true corners, each of which sticks out from all the others by at least 1/32 of a unit in some direction, and let the arc tangent of the library be accurate to 2^-21 (either half turn is allowed for negative numbers on the axis). Then the corners of the built face are, in their order and within 1/2000 of a unit, the true corners in an order in which every three of them turn clockwise as seen from outside; the built corners themselves turn clockwise in the same way; and every triangle of the face is seen from outside.", "quantifier": "every such brush and face, with any texture and entity; both ways of normalizing a vector; every library with such an arc tangent; every stable sort", "why_tests_cant": "The order depends on rounded angles around a rounded centre; a flipped triangle or crossed outline is seen only for particular shapes, and the half turn is reached only for particular first edges.", "anchors": ["src/geo_builder/brush_plane/mod.rs:60-130", "src/geo_builder/brush_plane/vertices.rs: intersect_brush_planes, vertex_in_hull"]}
{"id": "C119", "title": "Clear brushes are watertight up to a thousandth of a unit in single precision", "statement": "Let all faces of a brush of at most 1024 faces be as in C118 (small, no doubtful corners, one pair of planes at each true corner, sharp corners), let three of its planes be either dependent, or wound the other way, or span a volume of more than 1/2000, let different true corners be more than 1/250 apart in some coordinate, and let the brush be bounded with a point strictly inside. Then for every side from a to b of every triangle of the built brush there is a triangle of the built brush with a side from b' to a', where a' is within 1/1000 of a and b' within 1/1000 of b in every coordinate. If no plane is given twice, two triangle sides in the same direction whose ends agree within 1/500 are the same side of the same triangle. So joining corners that are closer than 1/500 makes the mesh closed, with exactly two triangles at every side. If many faces meet at corners (the pointed brushes of C125) every side still has an opposite side within 1/1000 of a unit.", "quantifier": "every such brush with any textures and entity; both ways of normalizing a vector; every library with an arc tangent accurate to 2^-21; every stable sort", "why_tests_cant": "A gap appears only where two faces round a shared corner differently, or order it differently, or one of them misses it; tests look at boxes, where rounding does not show.", "anchors": ["src/geo_builder/brush/mod.rs", "src/geo_builder/brush_plane/mod.rs:60-130", "src/geo_builder/brush_plane/vertices.rs: intersect_brush_planes, vertex_in_hull"]}
{"id": "C120", "title": "Texture coordinates of clear faces are right to a hundredth of a texel in single precision", "statement": "Let a face of a brush be as in C117 (small, no doubtful corners), its texture be at most 8192 texels wide and high, its offsets at most 8192 in absolute value and its scales at least 1/4 in absolute value. Then every built corner is within 1/2000 of a true corner x of the face, and its texture coordinates, multiplied by the size of the texture, are within 1/100 of the exact ones of x: (u axis . x) / scale + offset for a face with texture axes with coordinates of at most 1; and for a face without, with a rotation of at most 360 degrees, the projection of x along the coordinate axis closest to the outward direction (z before y before x when equally close), turned by the rotation, divided by the scale, plus the offset, as long as the sizes of two coordinates of the direction are equal or differ by at least 1/100000. Where corners of two faces with the same texture, texture axes, offsets and scales are within 1/500 of each other, their texture coordinates are within 1/16 of a texel.", "quantifier": "every such brush and entity; both ways of normalizing a vector; without texture axes: every library that turns vectors accurately to 2^-20; every stable sort", "why_tests_cant": "The error depends on the position, the shape of the brush, offset, scale and rotation; tests use a few textured boxes and compare to recorded values.", "anchors": ["src/geo_builder/brush_plane/uvs.rs:7-69", "src/geo_builder/brush_plane/mod.rs:60-130", "src/types/texture.rs:18-20"]}
{"id": "C121", "title": "Normals of clear faces are right in single precision", "statement": "Without `_phong` = `1` the normal of every built vertex of a small face (as in C116) is finite and within 1/1000000 of the outward direction of the face in every coordinate. With `_phong` = `1`, for a small face without doubtful corners (as in C117), every built vertex is within 1/2000 of a true corner x of the face at which two other planes of the brush pass through x, and its normal is finite and within 1/2000 of the unit vector in the direction of: the sum of the outward unit normals of the three faces, if `_phong_angle` is missing or unreadable; the normal of the face plus those of the two other normals whose angle to it is less than the `_phong_angle` (plus a hundredth of a degree), if that is a number of at most 360 and the cosine of the angle differs by at least 1/100000 from the cosines between the normals. If only three faces meet in x, the normal without an angle is the same on all three of them up to the error.", "quantifier": "every such brush and entity; both ways of normalizing a vector; with an angle: every library whose cosine is accurate to 2^-20; every stable sort", "why_tests_cant": "The error depends on the shape of the brush and is largest where the normals nearly cancel; tests look at a few smooth brushes.", "anchors": ["src/geo_builder/brush_plane/normals.rs:7-35", "src/geo_builder/brush_plane/mod.rs:38-60", "src/geo_builder/brush_plane/mod.rs:95-144"]}
{"id": "C122", "title": "Tangents of small faces are right in single precision", "statement": "Let a face be small (points on a grid near the origin, as in C116). With texture axes with coordinates of at most 1, the tangent of every built vertex is exactly the first axis, and its sign is minus the sign of the orientation of (outward direction, first axis, second axis), as long as the volume they span is at least 1/100000. Without texture axes, with a rotation of at most 360 degrees, a second scale other than zero, and two coordinates of the outward direction either equal in size or different by at least 1/100000, the tangent is finite and within 1/50000 in every coordinate of the first axis of the coordinate plane the face is projected onto (z before y before x), turned around the outward direction by the rotation, in the sense given by the side from which the plane is seen; its sign is exactly that side times the sign of the second scale.", "quantifier": "every such face of every brush and entity; both ways of normalizing a vector; without texture axes: every library that turns vectors around an axis accurately to 2^-18", "why_tests_cant": "The sign of a tangent is decided by comparing and taking signs of rounded numbers; all directions, also those equally close to two axes.", "anchors": ["src/geo_builder/brush_plane/tangents.rs:5-55"]}
{"id": "C123", "title": "A map of firm brushes is drawn right up to 1/2000 of a unit in single precision", "statement": "Let the brushes of a map be firm (bounded solids of small faces on a grid near the origin without doubtful corners, as in C119). A map file of such brushes loads, under the conditions on its entities of C91. Every drawn point, that is, every point of a triangle of a visible mesh in the finished scene, is within 1/2000 of a unit in every coordinate of a point of a face that is to be shown and has an area; and every point of such a face, at any place of it, not only its corners, is that near to a drawn point. If all faces are to be shown and all entities are reached, the picture and the borders of the brushes agree in this sense: no hole and no stray triangle is larger than the error.", "quantifier": "every map file and configuration; every number of entities and brushes; every order of the hash maps; every stable sort; every library whose arc tangent is accurate to 2^-21", "why_tests_cant": "A picture is a set of infinitely many points; tests compare a few vertices of a few brushes with what the program gave before. A missing or wrong triangle between right vertices is only seen by following the outline of each face.", "anchors": ["src/lib.rs: run", "src/geo_builder/brush_plane/mod.rs: build", "src/scene_tree/mod.rs: build_brush_entity_texture_surface"]}
{"id": "C124", "title": "Collision of a map of firm brushes is right up to 1/2000 of a unit in single precision", "statement": "Let the brushes of a map be firm (as in C119). The points enclosed by the convex collision shapes of the finished scene and the points of the brushes that are to have convex collision agree up to 1/2000 of a unit: every point of either set is within 1/2000 in every coordinate of a point of the other. The points of the triangles of the concave collision shapes and the points of the borders of the brushes that are to have concave collision agree in the same way. A map file of firm brushes loads, under the conditions on its entities of C91.", "quantifier": "every map file and configuration; every number of entities and brushes; every order of the hash maps; every stable sort; every library whose arc tangent is accurate to 2^-21", "why_tests_cant": "A collision shape encloses infinitely many points, and whether a player falls through is decided between the corners; tests compare lists of corners.", "anchors": ["src/lib.rs: run", "src/scene_tree/mod.rs: get_entity_convex_collision, get_entity_concave_collision", "src/geo_builder/brush_plane/mod.rs: build"]}
{"id": "C125", "title": "Maps of brushes with corners of many faces are drawn and solid right up to 1/2000 of a unit in single precision", "statement": "Let the brushes of a map be bounded solids of small faces on a grid near the origin without doubtful corners, as in C119, but with any number of faces meeting at a corner, as at the top of a pyramid; the more pairs of faces meet a face at a corner, the sharper its corners have to be (each sticks out from the others by (k+3)/128 units in some direction, for k pairs, and k times the number of corners is at most 256). At such a corner the program finds several points that differ by rounding and keeps them all, in the order of their computed angles. Still every drawn point is within 1/2000 of a unit of a point of a face that is to be shown, every point of such a face with an area is that near to a drawn point, the convex collision shapes and the brushes agree in this sense, and so do the concave ones and the borders. A triangle with three different true corners is seen from outside. A map file of such brushes loads, under the conditions on its entities of C91.", "quantifier": "every map file and configuration; every number of entities, brushes and faces at a corner; every order of the hash maps; every stable sort; every library whose arc tangent is accurate to 2^-21", "why_tests_cant": "Points that should be one differ by rounding in ways that depend on the compiler and the numbers; whether the sliver triangles between them tear the outline open depends on the order in which their angles come out, of which tests see one case.", "anchors": ["src/lib.rs: run", "src/geo_builder/brush_plane/mod.rs: build", "src/scene_tree/mod.rs: build_brush_entity_texture_surface, get_entity_convex_collision, get_entity_concave_collision"]}
{"id": "C126", "title": "Normals, texture coordinates and tangents stored in the scene are those of the faces", "statement": "Every triangle of a mesh in the scene is one of a face that is to be shown, and at each of its corners position, normal, tangent, texture coordinate and colour are all those of one vertex of a face of the same brush with the same texture, at the same place; meshes with a texture have texture coordinates. If no two vertices of faces of a brush with the same texture are equal in all attributes, the data are those of the face itself, and every triangle of a shown face is in the scene with all its data. With exact arithmetic this is so if no two planes of a brush with the same outward direction have a point in common and nothing is smoothed. In single precision it is so for the firm brushes of C123 without repeated faces; then each corner of each triangle is within 1/2000 of a unit of a true corner of the face, its normal within 1/1000000 of the true one, its texture coordinate within a hundredth of a texel and its tangent right, where the layout of the texture allows it (C120-C122). A map file of such brushes loads, under the conditions on its entities of C91.", "quantifier": "every map file and configuration; every number of entities, brushes and faces; every order of the hash maps; in single precision every stable sort and every library with accurate sines and rotations", "why_tests_cant": "The data pass through gathering, merging and re-indexing; a test sees single meshes, and a corner with the data of another face is hard to see there.", "anchors": ["src/lib.rs: run", "src/geo_builder/brush_plane/mod.rs: build", "src/geo_builder/brush_plane/uvs.rs: vertex_uv", "src/geo_builder/brush_plane/tangents.rs: vertex_tangent", "src/scene_tree/mod.rs: build_brush_entity_texture_surface, gather_entity_geometry, filter_vertices"]}
{"id": "C127", "title": "Meshes and concave collision shapes of the scene have no holes", "statement": "If every brush is shown wholly or not at all, then with each directed side of a triangle of a mesh in the scene, a mesh of the scene has a triangle with the opposite side; the same holds for the concave collision shapes, whatever the blacklists are. With exact arithmetic this holds for proper brushes (C78), in single precision exactly for boxes on a grid with first edges along an axis (C109), and up to 1/1000 of a unit at both ends for firm (C119) and pointed brushes (C125). A map file of pointed brushes loads, under the conditions on its entities of C91.", "quantifier": "every map file and configuration; every number of entities, brushes and faces; every order of the hash maps; in single precision every stable sort and every accurate arc tangent", "why_tests_cant": "A hole needs a missing, doubled or turned triangle anywhere between the parser and the scene; tests with single meshes do not look for unpaired sides.", "anchors": ["src/lib.rs: run", "src/geo_builder/brush_plane/mod.rs: build", "src/scene_tree/mod.rs: build_brush_entity_texture_surface, get_entity_concave_collision, gather_entity_geometry, filter_vertices"]}
{"id": "C128", "title": "Triangles of the scene face outwards", "statement": "Every triangle of a mesh or of a concave collision shape in the scene goes clockwise seen from outside the face it belongs to, and so has an area. With exact arithmetic and proper brushes its corners lie exactly on that face; if moreover no two planes of a brush with the same outward direction have a point in common and nothing is smoothed, the unit normals stored at its three corners point to the side from which it goes clockwise. In single precision the triangles of firm brushes go clockwise as stored, and their corners are within 1/2000 of a unit of those of an exact triangle on the face which goes clockwise as well. The same holds for the triangles of pointed brushes (C125), except those with two corners within 1/1000 of a unit of each other.", "quantifier": "every map file and configuration; every number of entities, brushes and faces; every order of the hash maps; in single precision every stable sort and every accurate arc tangent", "why_tests_cant": "One turned triangle among many is a hole in the picture from one side only; the order of corners passes through sorting, gathering, merging and re-indexing.", "anchors": ["src/lib.rs: run", "src/geo_builder/brush_plane/mod.rs: build", "src/geo_builder/brush_plane/normals.rs: vertex_normal", "src/scene_tree/mod.rs: build_brush_entity_texture_surface, get_entity_concave_collision, gather_entity_geometry, filter_vertices"]}
{"id": "C129", "title": "The triangles of a brush enclose exactly the brush", "statement": "In exact arithmetic, for a proper convex brush (the one of C78): a point is in the brush exactly if no triangle built for it faces the point, so the solid can be told from the triangles alone, also when some planes contribute no triangle. If no plane is given twice, the directed areas of all triangles add up to zero; hence the volume they enclose is the same from wherever it is measured, it is positive (the surface is not inside out), and it is the volume of the brush as a part of space, its Lebesgue measure. The same holds for the whole concave collision shape of an entity, whose volume is the sum of the volumes of its brushes.", "quantifier": "every proper brush, every entity of such brushes, every point of space", "why_tests_cant": "Point-in-brush and volume are statements about all points of space and about all triangles of a brush together; a test sees a few points of a few brushes.", "anchors": ["src/geo_builder/brush/mod.rs: build", "src/geo_builder/brush_plane/mod.rs: build", "src/geo_builder/brush_plane/vertices.rs: intersect_brush_planes, vertex_in_hull", "src/scene_tree/mod.rs: get_entity_concave_collision"]}
{"id": "C130", "title": "Where smooth shading has seams", "statement": "In exact arithmetic, with '_phong' = '1': the faces whose normals may take part at a corner are the face itself and the last pair of planes, in the order of the file, that meets it there. Hence at a corner where only three faces of the brush meet (up to repeated planes), two of them have the same vertex normal exactly if the angle between the two is below the phong angle and the third face is within the phong angle of both or of neither of them; without a (readable) phong angle they always have the same normal. Where more faces meet this fails, because every face looks at only two others: at the top of a pyramid with four sides the four normals are never all the same, whatever the order of the faces, even though everything is to be smoothed.", "quantifier": "every brush, face, corner, phong angle, texture table; exact arithmetic", "why_tests_cant": "Whether two faces agree depends on which pair of planes produced the corner in each of them, so on the order of the faces and on the angles of all three; tests look at one order and one angle.", "anchors": ["src/geo_builder/brush_plane/mod.rs: build", "src/geo_builder/brush_plane/normals.rs: vertex_normal, phong_normal"]}
{"id": "C131", "title": "How large the scene is", "statement": "If no two entities of a map have the same '_tb_id', its scene has at most two more entity nodes than the map has entities (the layers of the worldspawn), and at most three times as many nodes in all. Its meshes and collision shapes together have at most 2 S vertices and at most 6 S indices, where S is the sum over all brushes of the map of the cube of the number of planes; the square is enough in exact arithmetic if the brushes are proper (C78), and in single precision if they are firm (C119). Without unique ids the size is not bounded by the size of the map in any useful way: for every k there is a map of 2k+1 entities without brushes, of at most 100 (k+1)^2 characters and with no entity nested in itself, that loads under every configuration and gives a scene of at least 2^(k+1) - 1 entity nodes.", "quantifier": "every map, configuration, layer order, depth limit; every k; every arithmetic", "why_tests_cant": "The bound is about all maps, and the maps that break it when ids repeat look harmless: each entity is a correct group, 41 of them give more than two million nodes.", "anchors": ["src/scene_tree/mod.rs: run, build_entity", "src/lib.rs: run"]}
{"id": "C132", "title": "How many corners a face has", "statement": "Whatever the arithmetic does, a face of a brush with n planes gets at most n^2 corners, and two fewer triangles than corners. In exact arithmetic a face of a proper brush (the one of C78) has fewer than n corners; in single precision the same holds for the firm brushes of C119. So the size of the geometry is governed by the number of planes, no matter how many triples of planes meet in the same point.", "quantifier": "every list of planes, face, texture table, entity; any arithmetic, exact arithmetic, single precision", "why_tests_cant": "A corner is found once for every pair of planes through it and in both orders, and only the removal of duplicates keeps the number down; whether it always does is a claim about all arrangements of planes.", "anchors": ["src/geo_builder/brush_plane/mod.rs: build, plane_vertices, unique_vertices"]}
{"id": "C133", "title": "Entities of missing groups leave no trace", "statement": "An entity is reached if it is the worldspawn, is in no group, or is in the group of a reached entity. If a map can be loaded, it can be loaded with any of the entities that are not reached taken out, and the scene is exactly the same, down to the order of nodes and vertices; in particular with the entities taken out whose group number no entity has. So such entities vanish from the scene without an error. The other way round, adding such entities to a map that can be loaded changes nothing, as long as their faces do not abort the geometry (all geometry is built, also of entities that are not shown).", "quantifier": "every map, set of unreached entities, configuration, layer order, depth limit; every arithmetic", "why_tests_cant": "That nothing at all depends on the entities left out - not the order of children, not the layers, not the centres - is a claim about pairs of loads of all maps; tests compare a few.", "anchors": ["src/scene_tree/mod.rs: run, build_entity", "src/layer_filter/mod.rs: run", "src/lib.rs: run"]}
{"id": "C134", "title": "A face that does not touch its brush moves only the centre", "statement": "Let one face of a brush be superfluous: the brush made of the other faces, even with each pushed out by 0.001, lies strictly behind it. In exact arithmetic it gets no vertices and no indices, and every other face is built exactly as if it were not there. So if two maps load whose entities differ only in such faces, each with the texture of another face of its brush, the points drawn, the points in convex collision shapes and the points on concave collision shapes are the same. But the centre of such a face is taken as the world origin and counted in the mean, so with n other faces the centre of the brush is n/(n+1) times what it would be without it, and does not move with the brush: moving all faces by t moves it by n/(n+1)·t.", "quantifier": "all texture tables, entities, brushes with any number of faces, positions of the superfluous face, and translations; all pairs of map texts, configurations and orders of texture groups", "why_tests_cant": "editors remove superfluous faces before saving, so sample maps have none; the effect is a position that is off by a fraction depending on the distance from the world origin", "anchors": ["src/geo_builder/brush/mod.rs", "src/geo_builder/brush_plane/mod.rs", "src/geo_builder/mod.rs"]}
{"id": "C135", "title": "Writing a face twice changes the centre but not what is drawn or solid", "statement": "Let two brushes be given by the same planes (the same three points), in any order and each written any number of times. In exact arithmetic faces given by the same points get the same corners and centre in both. So if two maps load whose entities differ only in how often faces are written and in how the textures lie on them, and the brushes are proper, the points drawn, the points in convex collision shapes and the points on concave ones are the same. But every copy of a face counts in the mean of the face centres: writing one of n faces once more takes the centre of the brush from c to (n·c + f)/(n+1), where f is the centre of that face.", "quantifier": "all texture tables, entities, lists of planes and numbers of repetitions; all pairs of map texts, configurations and orders of texture groups", "why_tests_cant": "editors do not write faces twice, but hand-made and generated maps do; the picture is the same, and the wrong position of the node is visible only against a second map", "anchors": ["src/geo_builder/brush/mod.rs", "src/geo_builder/brush_plane/mod.rs", "src/geo_builder/brush_plane/vertices.rs"]}
{"id": "C136", "title": "A scale of zero or a texture of size zero gives texture coordinates that are not finite", "statement": "In single precision, a face whose texture has width zero, or whose horizontal scale is (positive or negative) zero, can still be built, and then every one of its vertices has a first texture coordinate that is infinite or NaN; the same holds for height, vertical scale and the second coordinate. This is so for both texture layouts and whatever the axes, offsets and rotation are. So if a map loads and all faces with a texture are like that, every triangle drawn with it has such a texture coordinate at each of its corners.", "quantifier": "all texture tables, entities, lists of planes and faces, for any implementation of the library functions for single precision; all map texts, configurations and orders of texture groups", "why_tests_cant": "division by zero of floats raises no error: the load succeeds and only the renderer shows that something is wrong; a test needs a map with a scale of zero, which editors do not write", "anchors": ["src/geo_builder/brush_plane/uvs.rs", "src/types/texture.rs"]}
{"id": "C137", "title": "Very flat brushes vanish", "statement": "Call a brush flat if all of its faces are tilted by at most one degree from one common direction (the squared sine of the angle between their normals and it is below 1/3000), wherever, however large and with however many faces. Even in exact arithmetic such a brush is built without error, but none of its faces has a vertex, and its centre is the origin of the map. So if a map loads whose brushes are proper or flat, exactly the proper brushes are drawn, convex shapes fill exactly the proper ones and concave shapes cover exactly the boundaries of the proper ones. With convex collision a flat brush leaves a shape without points at the origin of the map.", "quantifier": "all texture tables, entities and lists of planes; all map texts, configurations and orders of texture groups", "why_tests_cant": "tests use blocks with upright sides; a sloping sheet without such sides disappears without error or message at any size, and the cause is a constant in another function", "anchors": ["src/geo_builder/brush_plane/vertices.rs", "src/geo_builder/brush_plane/mod.rs", "src/geo_builder/brush/mod.rs"]}
{"id": "C138", "title": "Brushes with fewer than four different faces are not drawn", "statement": "A brush with at most three different faces, each written any number of times, is no bounded body. No code rejects it: in exact arithmetic it is built, but each face has at most one corner and no triangle. So if a map loads whose brushes are proper or have at most three different faces, exactly the proper ones are drawn and have concave collision, and a convex shape made from one of the others has at most one point.", "quantifier": "all texture tables, entities and lists of planes; all map texts, configurations and orders of texture groups", "why_tests_cant": "tests use complete brushes; a brush that lost faces, for example because their lines are indented (C77), disappears without error or message", "anchors": ["src/geo_builder/brush_plane/vertices.rs", "src/geo_builder/brush_plane/mod.rs", "src/geo_builder/brush/mod.rs", "src/scene_tree/mod.rs"]}
{"id": "C139", "title": "Brushes whose faces are written the wrong way round vanish", "statement": "Take a bounded brush with a point that is more than 0.001 units behind all of its faces, and write the three points of every face in the opposite order, as in a mirrored map. In exact arithmetic the brush is built without error, but none of its faces has a vertex, and its centre is the origin of the map. So if a map loads whose brushes are proper or inside out like this, exactly the proper brushes are drawn, convex shapes fill exactly the proper ones and concave shapes cover exactly the boundaries of the proper ones. With convex collision a brush that is inside out leaves a shape without points at the origin of the map.", "quantifier": "all texture tables, entities and lists of planes; all map texts, configurations and orders of texture groups", "why_tests_cant": "the order of the points is a convention of the file format; tests use maps written by editors, and a tool that mirrors a map or uses the other convention gives an empty scene without error or message", "anchors": ["src/geo_builder/brush_plane/vertices.rs", "src/geo_builder/brush_plane/mod.rs", "src/geo_builder/brush/mod.rs", "src/map/quake/types/brush_plane.rs"]}
{"id": "C140", "title": "A mirrored map gives an empty scene", "statement": "Take a map in which every brush is bounded and has a point that is more than 0.001 units behind all of its faces, and mirror it: replace every point of every face by its mirror image, turned and moved in any way, and leave the order of the points as it is. In exact arithmetic every brush of the mirrored map has all its faces the wrong way round, so if the mirrored map loads, no point is drawn, no point is in a convex collision shape, and no point is on a concave collision shape.", "quantifier": "all lists of planes, all rotations and translations after the mirror; all map texts, configurations and orders of texture groups", "why_tests_cant": "a turned or moved map gives the turned or moved scene (C103), and one may expect the same of a mirrored one; whether a map is mirrored is no property of any single brush in the tests, and the load succeeds without a message", "anchors": ["src/geo_builder/brush_plane/vertices.rs", "src/geo_builder/brush_plane/mod.rs", "src/geo_builder/brush/mod.rs", "src/map/quake/types/brush_plane.rs"]}
{"id": "C141", "title": "A map that is mirrored properly gives the mirrored scene", "statement": "Take a map of proper brushes, replace every point of every face by its mirror image, turned and moved in any way, and exchange the second and the third point of every face; keep all properties except origins, which may change. Every mirrored brush is proper again. If both maps load with the same configuration, then in exact arithmetic a point of the first scene is drawn if and only if its mirror image is drawn in the second scene, is in a convex collision shape if and only if its mirror image is, and is on a concave collision shape if and only if its mirror image is.", "quantifier": "all lists of planes, all rotations and translations after the mirror; all pairs of map texts, configurations, recursion depths and orders of texture groups", "why_tests_cant": "with C140 it says how a map has to be mirrored; the corners of a mirrored face are found by other expressions and sorted in the other direction, so the equality is not visible in any single number that a test compares", "anchors": ["src/geo_builder/brush_plane/vertices.rs", "src/geo_builder/brush_plane/mod.rs", "src/geo_builder/brush/mod.rs", "src/scene_tree/mod.rs"]}
{"id": "C142", "title": "What two maps show together is what they show one by one", "statement": "Take three maps such that the third has exactly the brushes of the first two: a brush is in an entity with certain properties in the third map if and only if it is in an entity with these properties in the first or in the second map, counting only entities that are in the scene. If all three load with the same configuration, then a triangle with given corners is drawn in the third scene if and only if it is drawn in the first or the second scene, and the same holds for the triangles of concave collision shapes, in any arithmetic. In exact arithmetic a point is in a convex collision shape of the third scene if and only if it is in one of the first or the second. In particular adding brushes to a map never removes or changes anything that is drawn or solid.", "quantifier": "all triples of map texts with this relation, all configurations, recursion depths and orders of texture groups; all corners and points", "why_tests_cant": "surfaces, shared vertices, layers and the textures of all brushes of an entity are combined, so a brush could well affect others; a test compares few maps", "anchors": ["src/scene_tree/mod.rs", "src/geo_builder/mod.rs", "src/geo_builder/brush/mod.rs", "src/geo_builder/brush_plane/mod.rs"]}
{"id": "C143", "title": "Cutting brushes in two leaves the scene as it is outside the cuts", "statement": "In exact arithmetic, replace some brushes of a map by their two parts: the brush with one more plane, and the brush with the same plane turned round, both with textures that are on the brush. If all brushes before and after are proper and both maps load with the same configuration, then the same points are solid in both scenes. All that was drawn before is still drawn, and a point that is drawn only afterwards is in one of the brushes that were cut and on the plane of that cut. In particular cutting never opens a hole.", "quantifier": "all pairs of map texts with this relation and all choices of brushes and cutting planes, all configurations, recursion depths and orders of texture groups; all points", "why_tests_cant": "corners are found anew for each part, so a hole or a seam could arise for particular planes only; a test compares few cuts", "anchors": ["src/geo_builder/brush/mod.rs", "src/geo_builder/brush_plane/mod.rs", "src/geo_builder/brush_plane/vertices.rs", "src/scene_tree/mod.rs"]}
{"id": "C144", "title": "Nothing solid is entered or left without crossing what is drawn", "statement": "In exact arithmetic and for proper brushes: if everything that the game data gives convex collision also has a mesh, and no texture on a solid brush is blacklisted, then every continuous walk that starts outside all convex collision shapes and ends in one, or starts in one and ends outside, passes a point that is drawn. So there are no invisible walls and no holes in the picture through which one could see or walk into a wall. Likewise every continuous walk into or out of a brush with concave collision passes a triangle of a concave shape.", "quantifier": "all maps with proper brushes, all configurations with this relation between collision and meshes, recursion depths and orders of texture groups; all continuous walks", "why_tests_cant": "there are infinitely many walks, and a hole may be of any size and at any place; a test shoots a few rays at a few maps", "anchors": ["src/scene_tree/mod.rs", "src/geo_builder/brush/mod.rs", "src/geo_builder/brush_plane/mod.rs", "src/geo_builder/brush_plane/vertices.rs"]}
{"id": "C145", "title": "Nothing solid is entered or left without coming near what is drawn, in single precision", "statement": "In single precision, as the program computes, and for maps of pointed brushes (C125): if everything that the game data gives convex collision also has a mesh, and no texture on a solid brush is blacklisted, then every continuous walk between a point in a convex collision shape and a point that is more than 1/2000 of a unit away from all of them, in either direction, passes within a thousandth of a unit of a point that is drawn. Likewise every continuous walk into or out of a brush with concave collision passes within 1/2000 of a unit of a triangle of a concave shape.", "quantifier": "all maps of pointed brushes, all configurations with this relation between collision and meshes, recursion depths and orders of texture groups; all continuous walks", "why_tests_cant": "there are infinitely many walks and rounding differs from brush to brush; a test shoots a few rays at a few maps", "anchors": ["src/scene_tree/mod.rs", "src/geo_builder/brush/mod.rs", "src/geo_builder/brush_plane/mod.rs", "src/geo_builder/brush_plane/vertices.rs"]}
{"id": "C146", "title": "A clipped map gives the clipped scene", "statement": "In exact arithmetic, clip all brushes of a map at one plane: brushes that are all in front of it are removed, brushes that are all behind it may be kept, all others get the plane as one more face, with a texture that is on the brush. If all brushes before and after are proper and both maps load with the same configuration, then exactly those points are solid that were solid before and are not in front of the plane. What was drawn behind the plane is still drawn, nothing is drawn in front of it, and whatever is drawn only after clipping is on the plane and in a brush of the original map.", "quantifier": "all pairs of map texts with this relation and all clipping planes, all configurations, recursion depths and orders of texture groups; all points", "why_tests_cant": "corners are found anew for each clipped brush, and one more face changes which corners are kept; a test clips few maps at few planes", "anchors": ["src/geo_builder/brush/mod.rs", "src/geo_builder/brush_plane/mod.rs", "src/geo_builder/brush_plane/vertices.rs", "src/scene_tree/mod.rs"]}
{"id": "C147", "title": "How a wall is built of brushes does not matter", "statement": "If two maps, with their configurations, have brushes with convex collision at the same points, however many brushes these are and however they overlap or touch, then in exact arithmetic and for proper brushes the same points are solid in both scenes. In single precision, for pointed brushes (C125), what is solid agrees up to a thousandth of a unit. If everything that has convex collision also has a mesh and no texture of a solid brush is blacklisted, then the whole surface of what is solid is drawn: exactly in exact arithmetic, and up to 1/2000 of a unit in single precision.", "quantifier": "all pairs of maps with the same solid points, all configurations, recursion depths and orders of texture groups; all points of space", "why_tests_cant": "there are infinitely many ways to build the same wall; a test compares two of them at a few points", "anchors": ["src/scene_tree/mod.rs", "src/geo_builder/brush/mod.rs", "src/geo_builder/brush_plane/mod.rs", "src/geo_builder/brush_plane/vertices.rs"]}
{"id": "C148", "title": "A map of separate brushes is drawn exactly on the surface of what is solid", "statement": "In exact arithmetic and for proper brushes: if the game data gives convex collision to exactly what it gives a mesh, no texture of a solid brush is blacklisted and no two different solid brushes have a point in common, then a point is drawn if and only if it is on the surface of what is solid: it is in a convex collision shape, and there are points as near as one likes that are in none.", "quantifier": "all maps of separate proper brushes, all configurations with this relation between collision and meshes, recursion depths and orders of texture groups; all points of space", "why_tests_cant": "it compares two sets of infinitely many points that are computed in different ways, triangles and hulls of points; a test compares them at a few points", "anchors": ["src/scene_tree/mod.rs", "src/geo_builder/brush/mod.rs", "src/geo_builder/brush_plane/mod.rs", "src/geo_builder/brush_plane/vertices.rs"]}
