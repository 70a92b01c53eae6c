#!/usr/bin/env python3
import json
N={}
def n(i,note,status=None):
    N[i]={'note':note}
    if status: N[i]['status']=status
n('C08','False of the code for repeated vertices and for empty faces (C08_refuted, C08_full keeps the full statement); proved for faces without repeated vertices. C08_exact characterises the answer for all faces.')
n('C09','False of the code: star shaped polygons are accepted (C09_refuted). Proved: every strictly convex polygon is accepted, exact for quadrilaterals, triangles, invariances, errors; in general is_convex decides "all turns the same way". C09_exact: a polygon is strictly convex exactly if it is accepted and goes up and down only once in some direction; C09_once: on such polygons is_convex is right.')
n('C14','False of the code (C14_refuted): copy assignment keeps the old box (mesh.cpp:126), so sums starting from Mesh() lose the first box. Proved for sums starting from a non empty mesh with a tight box; for sums starting from Mesh(), C14_exact says exactly which have the right box.')
n('C15','Not an equivalence on faces with repeated vertices (C15_refuted, inherited from C08); proved otherwise. C15_exact says what == and != do on all meshes.')
n('C16','False of the code for faces with more than three vertices (only the first triangle is stored) and for tiny triangles; exact behaviour proved (C16_exact), identity proved for triangle meshes.')
n('C17','False of the code beyond 65535 points or names of 63 characters (undefined behaviour, C17_refuted); proved within limits; C17_exact says exactly when it is undefined.')
n('C19','False of the code (C19_refuted: undefined behaviour on three kinds of malformed lines); proved defined for every text that contains what it declares, in particular everything the writer writes; C19_exact and C19_exact_sizes characterise exactly the texts on which reading is undefined.')
n('C20','False of the code for blank lines, which make the reader throw (C20_refuted, C20_blank); proved for comments.')
n('C21','False of the code (C21_refuted): missing numbers are filled with zeros; proved for accepted texts: counts and faces match the text; C21_loose_partial says what missing, negative and too large indexes become.')
n('C22','Proved for every double, for all conversions of decimals to doubles: the nearest six digit decimal is printed, ties to even (C22_nearest), in the notation of C22_notation. C22_idempotent (the same text) needs normal numbers and holds for all conversions; C22_second_trip (the same value) is for all finite numbers, with the conversion to the nearest double; C22_tiny_text shows that the text may change among the subnormal ones.')
n('C24','C24_exact is a necessary and sufficient condition. False of the code for texts without object, and for coordinates with more than six digits (C24_refuted); proved unchanged for coordinates with at most six digits, and in general unchanged from the second trip on (C24_second_trip; C24_second_trip_doubles without condition on small coordinates).')
n('C25','Proved; C25_zero_index shows that index 0 is accepted and stands for the origin.')
n('C26','False of the code (C26_refuted: vertex line with four numbers; C26_index_beyond); proved defined under InRangeObj; C26_exact characterises exactly the texts on which reading is undefined.')
n('C27','The empty list is undefined behaviour (C27_refuted); proved for every non empty list.')
n('C28','False of the code: writing an OFF scene creates the directory before it throws (C28_refuted_write, C28_off_directory), reading a 3DS scene through a writing handler is undefined (C28_refuted_read); proved for all other operations.')
n('C29','Proved for every list of meshes and every excluded name, and for the scene read from an OBJ file.')
n('C30','False of the code (C30_refuted): a terrain that is not named "terrain" is lost (C30_terrain_name, in general), pivot and EPSG code are replaced by defaults. Proved for every other scene written to a fresh directory, for every order of the directory listing.')
n('C31','Proved as an equivalence for every format string and path, in terms of the characters of the file name (C31_names, C31_buildings).')
n('C32','Proved as an equivalence for every map of modes and file system.')
n('C33','False of the code (C33_refuted); C33_exact says what is returned for every forest and level, C33_level_one_iff when level 1 is right.')
n('C34','False of the code for node_meshes(name) (C34_refuted: as many empty meshes are put in front); C34_node_meshes_partial is exact; proved for the summed mesh (C34_mesh).')
n('C35','Proved by induction over all forests.')
n('C36','False of the code for EPSG codes above 65535 (C36_refuted); everything else proved; a missing element is undefined behaviour (C36_missing).')
n('C37','Proved for every plane, point and library; overflow exactly when the plane is vertical.')
n('C38','Proved for every facet with at least three vertices.')
n('C39','False of the code (C39_refuted): CGAL stores holes clockwise, their signed areas are negative and subtracting them adds; proved for faces whose holes are counterclockwise or absent, and invariance in general. C39_exact: the area is right exactly if no hole is clockwise, the excess being twice the area of the clockwise holes.')
n('C40','Proved for every face print and point, for every library.')
n('C41','Proved as an equivalence relation with an exact characterisation.')
n('C42','C42_exact is a necessary and sufficient condition. False of the code (C42_refuted): the stored plane is d + ref.z; C42_plane_iff says exactly when the plane is right, borders and ids are proved to survive.')
n('C43','False of the code (C43_refuted): a facet whose first three vertices are collinear is dropped; C43_exact says exactly which facets are kept.')
n('C44','False of the code (C44_refuted: a hidden face whose sample point is on an edge makes later faces disappear). Proved for every lawful library: no ground is invented over any history (C44_no_new_ground), exact union whenever part of the new face remains or it was found under (C44_union_partial). Exactly when ground is lost, for a face that competes with a print without overlaps: if and only if nothing is left of it when the turn of some existing face comes (C44_exact).')
n('C45','False of the code (C45_refuted: a face cut in two duplicates the faces handled after). Proved when every insertion satisfies Fits. The exact number of faces above every point after an insertion in a print without overlaps is C45_layers; C45_exact says that overlaps appear if and only if the new face is in several pieces when the turn of some existing face comes.')
n('C46','False of the code (C46_refuted, C46_refuted_double). Proved when every insertion satisfies Fits; and, without reference to the algorithm, for any number of faces inserted bottom up, compared only where both are (C46_stack_partial), and for two faces that do not cross. C46_exact gives the height above every point after one insertion in a print without overlaps: each existing face counts once per piece left of the new face. C46_apart: faces that are nowhere above each other are all kept as they are.')
n('C47','False of the code (C47_refuted). Proved for any two orders that fit, for two faces that do not cross, for any two orders from the bottom up (C47_stack_partial), and for every order of faces that are nowhere above each other (C47_apart).')
n('C48','Proved with the loop of std::is_permutation as in libstdc++.')
n('C49','Proved for every library, brick print, face and history.')
n('C50','False of the code as stated (C50_refuted: adding footprints loses ground through the brick defect of C44). Proved: the refusal of a mismatch and what the left side is afterwards (C50_mismatch, C50_in_place), the sum when the faces fit, and for all histories of += that the reference never changes and no ground is invented (C50_history).')
n('C51','In exact arithmetic proved for every footprint whose faces lie in its box (C51_defined), in particular for those made from a node (C51_node); zero pixel size is undefined (C51_undefined). In doubles (IEEE binary64, Model/RasterDbl) it is false: 0.9 - 0.3 is rounded up, so that at a pixel size of 0.3 a face takes one column too many; the last row throws out_of_range (C51_refuted), other rows paint the first pixel of the next row (C51_misplaced). Proved for doubles: nothing is rounded when coordinates and pixel size are multiples of one power of two with 50 digits (C51_grid_partial); always a result or an exception, never undefined (C51_safe_partial); never more than one row or column too many (C51_one_off). When rasterize is called with a smaller image, the guard only refuses faces that stick out on two sides (C51_refuses) and wraps others around (C51_wrapped).')
n('C52','False of the code (C52_refuted: the grid is anchored at each face; C52_overflow_refuted: 16-bit counters; C52_order: unsequenced increment). Proved in full for faces aligned with the pixels (C52_aligned_partial), and for all footprints with respect to the grids the code lays (C52_mean_partial, C52_height): every face is shown displaced to the left and up by less than one pixel (C52_displaced_partial), and nothing of a face is lost (C52_nothing_lost).')
n('C53','False of the code (C53_refuted): the guard uses && and >. Proved: the pixel of every valid row and column, and exactly what happens for all others; assignments change one pixel.')
n('C54','Proved for every raster with one value and hit count per pixel and any number of calls.')
n('C55','False of the code (C55_refuted): the result of the pixel comparison is discarded. Proved: exact characterisation by metadata; not transitive.')
n('C56','Exactly when the image comes back unchanged is C56_exact. False of the code (C56_refuted, C56_epsg_refuted): the reference height and the EPSG code are lost. Proved for size, pixel size, horizontal position and pixels.')
n('C57','Proved for every closed or open half-edge surface that is valid.')
n('C58','Proved, also after prune.')
n('C59','False of the code (C59_refuted...): a vertex flat in the middle of an edge, a ring of coplanar facets and a fold are counterexamples. Proved under a stated law about the normals: see the _partial theorems. C59_exact: on plane facets without folds prune returns if and only if each end of a flat edge has two edges that are not flat and flat edges do not form rings, and then no flat edge is left.')
n('C60','False of the code (C60_refuted): rotate always writes into an empty vector (C60_rotate_undefined). Proved for affine_transform, translate, scale, composition and distances; the rotation matrix is a rotation (C60_matrix).')
n('C61','Exactly when the box fits after a scaling is C61_scale_iff. False of the code (C61_refuted): the box is computed once and never updated; exactly what it is instead is proved.')
n('C62','False of the code for check_collinearity, which looks at three points only (C62_refuted); extrem_points proved.')
n('C63','False of the code (C63_refuted): off by d/3 times the normal, where d is the signed distance of the plane from the origin; exact formula and exact condition proved. face_area of a facet that is not a triangle is treated as undefined; the total area of triangulated surfaces is the sum of the areas (C63_total_area) and scales with c squared.')
n('C64','circumference of facets and polygons proved; total_edge_length is false: every edge is counted twice (exactly twice, proved).')
n('C65','Proved for all sizes; the rounded square root of a double is modelled by Nat.sqrt, correct below 2^52. C65_failure: attributes that cannot be written.')
n('C66','Proved for all scenes.')
n('C67','False of the code (C67_refuted, C67_refuted_rasterize): the exit status is always 0, images are made only together with save, cityformat does nothing without output. Proved: only requested paths change, for every command line, file system and outcome. docopt is a parameter.')
n('C68','False of the code for objects with equal names (C68_refuted). Proved for distinct names without slash; C68_blocked and C68_first_failure say what happens when the directory cannot be made or a dual fails, C68_attributes what the attributes file holds. C68_duals_last, C68_rasters_last and C68_prints_last: with equal names each file holds the last object of its name.')
n('C69','False of the code (C69_refuted): the result of Create is not checked for images. Proved: exact behaviour of both writers.')
n('C70','False of the code (C70_refuted, C70_fresh): GDALAllRegister is only called by write. Proved: what is read after a write in the same process, given a GDAL that reads back what it writes.')
n('C71','False of the code (C71_refuted): courtyards are not counted. Proved: the circumference is short by exactly the length of the holes. C71_exact: the circumference is right exactly if the union has no courtyard.')
n('C72','Proved for every valid surface; the conversion of exact points to doubles is a parameter.')
n('C73','Proved given the laws of CGAL\'s soup algorithms (SoupLaw), which an explicit library is shown to satisfy. Meshes that do not form an oriented surface (repaired or rejected by CGAL) are not covered.')
n('C74','False of the code where a facet goes straight on at a corner (C74_refuted): the determinant of three points on a line is zero whatever the neighbour does. Proved for surfaces whose facets turn at every corner, as triangulations do; C74_combinable_exact, C74_pruning_exact and C74_exact say which edges are listed on all surfaces of plane facets: no edge between coplanar facets is missed, and those listed wrongly are exactly the edges beside such a corner.')
n('C75','False of the code (C75_refuted, C75_too_long): the range holds both half-edges of a border edge, and the length of the following edge is taken, so inner edges are added. Proved: the exact value, zero for closed surfaces; undefined without normalize_border, which the library never calls.')
n('C76','Proved for points, vectors, boxes, faces, nodes, scenes, face prints, brick prints, footprints, rasters and cameras. False of meshes (C76_refuted: the box is assigned to itself); for meshes name, points and faces are proved for all histories, and everything for histories without copy assignment.')
n('C77','False of v ^= v (C77_refuted; exact result and exact condition proved), of m += m (undefined for every mesh with points) and of b += b for brick prints with faces over one another. Proved for different objects, for += and -= of vectors, for boxes, for the binary operators, and for prints of faces that do not overlap.')
n('C78','False: one face whose plane has a third coefficient below the machine epsilon makes every get_height of doubles on the print throw (C78_refuted). Proved: what the query returns for every brick print and point, agreement when no coefficient is small and to_double exact, in_domain is the closed box, contained points are in the domain and in an inserted face.')
n('C79','False: the precision of the stream stays at 6 (C79_refuted), and an image without pixels prints unbalanced brackets (C79_refuted_empty). Proved: the exact text for every complete image that is not empty, with the flags restored, and what happens to short and empty images.')
n('C80','False: every constructor that takes rotations dereferences the end of the map (undefined) as soon as one rotation is given (C80_refuted, C80_undefined). Proved: exact calibration, position and orientation without rotations, and for the constructor that takes an orientation.')
n('C81','False of OFF texts with Windows line ends (C81_refuted; C81_off_crlf: every such text is refused). Proved against a grammar that mentions no reader: the exact mesh of every OFF text, the polygons of every OBJ text with distinct names, and that Windows line ends are harmless in OBJ texts without empty lines. C81_obj_first and C81_obj_exact: of objects with one name the first is read and the others are left out, so an OBJ text is read as what it says exactly if the names are distinct.')
n('C82','Refuted: a stream that cannot be opened swallows the output and write returns (C82_refuted). Proved: the exact effect on the file system in all cases (C82_off_partial, C82_obj_partial; writing no mesh at all in OBJ is undefined), and that what was written to a writable file is read back by another handler (C82_off_read_back). C82_3ds_partial: the same for 3DS files, lib3ds being a parameter.')
n('C83','Proved for all histories by induction: C83_data, C83_read, C83_nothing_lost, C83_files, C83_scene. Only storing fails, for a handler without meshes (C83_refuted); C83_write_partial is the case of at least one mesh.')
n('C84','False of the code: a file lib3ds cannot load is a null pointer that is dereferenced (C84_refuted), and parts of nodes with the same name are lost (C84_refuted_names). Proved for files that load and whose nodes have different names: C84_levels_partial (with, without and with an unreadable document) and C84_document_partial. For all names, also equal ones: a building has the parts of the first object node of its name, and reading is undefined exactly if there is none (C84_levels_exact, C84_document_exact).')
n('C85','The full property is false: the scene read has position (0,0,0) and code 2154, and the buildings come in the order of their names (C85_refuted). Proved (C85_round_trip_partial): all names and polygons come back when the terrain is named terrain; with any other name it comes back as one more building and the terrain is empty; only the file changes. For names of any number of words, equal or not (C85_words_partial): one building for each first word, with the polygons of the first mesh that has it, and the terrain is the first mesh whose name begins with the word terrain: a building named terrain annex takes the place of the terrain, which is lost (C85_annex_refuted).')
n('C86','C86_format_off, C86_format_obj, C86_exact (the whole disk after a run of orthoproject), C86_ortho; the hypotheses (InputIs, RunOk) are met by complete runs (toy_run and examples). CGAL, GDAL, lib3ds and docopt are parameters. Failures are the subject of C67 and C68.')
n('C87','Refuted in full: closed meshes that touch along an edge only have a union that is not simple; the node is then silently empty (C87_refuted, C87_pinched). Proved: the exact union whenever the union is simple, all or nothing, independence of order and repetition, one mesh, no mesh, holes.')
n('C88','False as stated: each of the first four laws fails for some doubles (C88_refuted_each: p + (q - p) is the origin for another q; translations that do not compose; a ^ a is not a number; a ^ b is not orthogonal to a in any order of the sum). Proved for all doubles with infinities and NaN: commutativity and sign laws (C88_symmetry), a ^ a is zero exactly when the products are finite (C88_cross_self). Proved on subsets: all operations are exact on integer coordinates up to 2^25 in a unit that is a power of two (C88_exact_partial), determinants up to 2^16 (C88_det_exact_partial), p + (q - p) = q within a factor of two (C88_translation_partial). C88_dot_error bounds the error of every scalar product that is finite.')
n('C89','False as stated; C89_refuted_each has collinear points with a normal, points that are not collinear without one, a normal on the wrong side, a null vector from an overflow and an infinity from an underflow. Proved: reversal for all doubles (C89_reverse), NaN when the computed cross product is zero (C89_zero), the computed cross product is normalised up to 2^-49 if its coordinates are zero or between 2^-500 and 2^500 (C89_unit_partial), the full claim on integer coordinates up to 2^24 in a unit that is a power of two (C89_grid_partial), and for all doubles that are multiples of 2^-200, however many digits they have: the computed normal is the unit normal up to 2^-46 times the square of the width over twice the area (C89_robust_partial). Missing: triangles thinner than 2^-40 of that square.')
n('C90','The agreement with exact arithmetic is false (C90_refuted): C90_refuted_each has a dented quadrilateral that is accepted from one starting vertex and refused from another, and strictly convex ones that are refused because a corner is flat or because the face is tiny, in all orders of the sum. Proved for all doubles: errors (C90_errors), NaN (C90_nan). Proved agreement: differences up to 4096 units on a binary grid, anywhere (C90_grid_partial); all doubles when no corner is too flat, 2^-44 of the fourth power of the size (C90_robust_partial, C90_convex_partial).')
n('C91','False as stated (C91_refuted): a coordinate such as 6862000.25 becomes 6862000 and a triangle with sides of 2^-27 is turned over (C91_refuted_each). Proved for all doubles: the exact shape of the result (points rounded to floats, first three vertices of each face as they were or turned over, (0,0,0) for each lost triangle: C91_shape), the rounding error of a coordinate (C91_coordinate), no further change of the points after the first round trip (C91_points_stable), triangles with an infinite or NaN coordinate are turned over (C91_nonfinite_turned). Proved on a grid (integers up to 2^24 times a power of two), for every triangle however long or thin: the determinant computed on reading is off by at most two thirds of twice the area (C91_grid_determinant_partial; one part in 2^20 up to 4096 units: C91_determinant_partial), so the triangle is kept from 2^-50 and turned over up to 2^-53 (C91_grid_orientation_partial), and with a unit from 2^-25 on every mesh of triangles that are not flat comes back as it was (C91_grid_partial). Proved for coordinates with all the digits of a double, when twice the area is at least 2^-19 of the longest side times the largest coordinate: determinant within 47 percent (C91_robust_determinant_partial), orientation kept (C91_robust_orientation_partial), every mesh of such triangles comes back with its points rounded to floats and its faces as they were (C91_robust_partial). Missing: thinner triangles with more digits than a float has, tiny triangles, polygons with more than three vertices (which lose triangles, C91_shape).')
n('C92','False as stated (C92_refuted): when the last index of the last face is lost the reader returns a face with 0 in its place, without an exception (C92_index_lost); a mesh without faces whose last point lost its coordinates after the first reads past the end of a vector (C92_point_lost). Proved for all meshes and places: a cut before the last line is refused (C92_refused_partial), if only whole lines arrived an incomplete text is refused (C92_lines_partial), otherwise at most the last face differs and nothing else (C92_cut_partial), and the loss of the last line break alone changes nothing (C92_last_break).')
n('C18','For names with line breaks: the file can be read, with the same result, exactly if each line break of the name is followed by a sharp (C18_names); otherwise no mesh is read, and for some names reading the file is undefined behaviour (C18_name_undefined).')
n('C23','For names of several words (C23_words): only the first word is read, the first mesh with it is kept, the others are lost; nothing is lost exactly if the first words are different (C23_words_exact). A name with a line break can forge a face (C23_forged).')
n('C93','False as stated (C93_refuted): the name is printed but not read. Proved for every mesh, without any condition: the printed text is read exactly as the text that the OFF handler writes (C93_reads_as_off), with the same exceptions and undefined behaviour. From this, with the conditions of C18, points and faces come back (C93_round_trip_partial), and two meshes that print the same have the same name, the same faces and points equal in their leading digits (C93_tells_apart_partial). The line with the bounding box states the extent of the points (C93_box). With any number of digits each coordinate comes back as its printed form reads, and for names with line breaks it is settled when the text can be read: exactly when each line break is followed by a sharp (C93_names). Missing: the name.')
n('C94','False as stated (C94_refuted): the file is emptied before it is written (C94_old_lost). Proved for all crash points: the file of a mesh or of an OBJ scene is as it was or holds a beginning of the new text, and nothing else changed (C94_off_crash, C94_obj_crash); in a directory of OFF files the first ones are complete, at most one is cut and the others are as they were (C94_scene_crash), the same for dual graphs (C94_dual_crash); reading the file of a mesh with points and faces throws, or gives what it gave before, or the new mesh up to its last face (C94_off_read_partial); reading a scene after its writing to a fresh directory was interrupted throws, or gives all the buildings and the terrain up to its last face (C94_scene_read_partial). In a directory that was not fresh, what is then read without exception holds all the objects whose files were complete, at most one up to its last face, and otherwise objects of before (C94_scene_mixed_partial). The sequences of calls have together the effect of the writers of C82, C30 and C68 (C94_*_calls). Missing: GDAL and lib3ds, loss of power (see C127 for whole runs).')
n('C95','False as stated (C95_refuted): the notation does not tell how many objects there are, and every beginning that has an object is the result of some cut (C95_lost). Proved for all meshes and places: the reader throws or returns the complete objects and at most one more, of which a beginning is left: of its name, of its faces, or its first faces and one with fewer corners of which only the last may be wrong; it is never undefined (C95_cut_partial). If whole lines arrived, what is returned is exactly a beginning of what was written (C95_lines_partial).')
n('C96','All of it but is_under holds. is_under looks at one point of the face (the centroid of its first three vertices), where heights of adjacent faces are added: C96_refuted, C96_refuted_elsewhere give faces said to be under a print although they are above it at most of their points. What the answer does mean: C96_under, C96_above_partial, C96_below_partial. C96_same_polygon says when contains(face) takes two polygons for the same.')
n('C97','False as stated (C97_refuted): two processes that write a building of one name can leave a file with corners of both, which is read without complaint (C97_mixed). Proved for all schedules: if the processes agree on the texts of the files they share, none fails, at any moment every file is as it was or has only right or missing characters, nothing else has changed, and in the end all files are complete (C97_agree_partial); no process waits for another (C97_finishes); a process nobody disturbs makes progress as if it were alone, even if others fail (C97_isolated_partial), and what is read of its meshes at any moment is refused, as before, or right up to the last face (C97_read_partial); scenes written to one directory with a common terrain are read as one scene with all the buildings (C97_scenes_partial). A process that is alone does what C30 and C68 say (C97_scene_alone, C97_dual_alone). Missing: GDAL and lib3ds outputs; a step is one character, opening with truncation is one step.')
n('C98','C98_refuted/C98_above: a flat roof at 10 cm in three faces gives a pixel at 0.10000000000000002. Proved for all footprints: C98_pixel_partial (error of the running mean and the offset against the exact mean of the heights), C98_height (error of the mean over the parts), C98_plane (error of the height of a plane at a point), C98_flat_partial (flat roofs are exact), C98_unrounded (without rounding the model is that of C51 and C52). Not modelled: infinities (heights beyond 2^1024) and the rounding of the centroid, which is a parameter.')
n('C99','C99_off, C99_obj, C99_scene, C99_duals, for any list of interruption points; what is read afterwards is the scene (C99_scene_read, C99_obj_read). The crash model is that of C94: what the system has received stays, GDAL and lib3ds are not modelled.')
n('C100','False (C100_refuted): buildings that the interrupted attempt had completed stay, and they are read as buildings of the new scene (C100_read_extra), since the writer does not empty the directory and the reader takes every OFF file. C100_other_scene says exactly what is the same: the outcome and all files except those of the other scene that the new one does not have, which keep what the attempts have left.')
n('C101','C101_footprint and C101_roofs hold; the claim on pixels is false (C101_refuted: a house whose box begins in the middle of a pixel is missing in a pixel that it covers) and proved for roofs whose boxes are aligned with the pixels (C101_pixels_partial), and for all roofs up to a displacement of each roof by less than one pixel (C101_displaced_partial). Roofs that overlap: C46.')
n('C102','C102_directory (two disks, two orders), C102_content (exactly what is read, for every directory), C102_refused (a bad file, under the condition that no file makes the OFF reader undefined: C19), C102_files (OBJ and 3DS).')
n('C103','C103_indexes (closure under all the operations that are modelled), C103_only_door (the converse), C103_off_door (an OFF text of others can bring a wrong index: C21), C103_to_3ds and C103_from_3ds (both directions of the conversion).')
n('C104','C104_footprint, C104_questions and C104_sum hold without conditions on conversions. The map and the exported outlines are the same when conversions to doubles are exact (C104_map_partial, C104_raster_partial, C104_rings_partial); with rounding they are not (C104_refuted: 2^53 m away the roof is at another height). The planes exported to vector files are not relative to the world in any case (C42).')
n('C105','False as stated (C105_refuted): at the insertion of a face the heights of all the faces around its sample point are added, so that a terrace over the edge between two roofs disappears or not depending on the height of the reference point; and with the other order of evaluation (C105_refuted_order) the map depends on it even without overlaps. Proved: the elevation map of any footprint does not depend on it (C105_raster_partial, counts read first, exact doubles, at most 32767 faces); the whole chain from the facets for roofs that do not overlap (C105_map_partial), and for roofs one above the other if every comparison reads one roof (C105_build_partial, C105_overlap_partial).')
n('C106','False as stated (C106_refuted): the plane of a face is made from the first three corners the library lists, and a flat roof with a straight angle there gets no plane and is not drawn. Proved: the facets projected are the faces of the mesh in order (C106_facets); faces without straight angles, each above the ones before wherever both are, as for a floor listed before its roofs, give the heights of the mesh (C106_node_partial, C106_mesh_partial from the mesh on, in either direction); the same for faces that do not overlap, in any order (C106_apart_partial); and in every case (C106_under) the footprint covers ground only under faces of the mesh, at their heights. Partial: other orders of overlapping faces are subject to the defect of C46.')
n('C107','False as stated (C107_refuted: the whole program is run on an OBJ file with a flat roof that has a straight angle, and its vector file is empty, as in C106). Proved: for any input format, once the scene is read (C107_scene_partial), from the text of an OBJ file (C107_obj_partial) and from a directory of OFF files (C107_off_partial), when the faces are without straight angles and each is above the ones before wherever both are. Partial: as C106.')
n('C108','C108_off (the directory in between, read by any handler with any listing) and C108_there_and_back (both runs). The hypotheses are on the first file and the state of the disk before the first run only; what the first run leaves is derived.')
n('C109','The full statement is refuted (C109_refuted: a.off and a.OFF hold two buildings named a, and the results of the one listed last survive). C109_order_partial: any run in which everything can be computed and written and the names differ, without --scene. C109_elsewhere_partial: with --scene, only the files of the whole scene may depend on the order. C109_format_partial: cityformat to OFF. Rests on C86_exact: the complete list of what a run of orthoproject leaves.')
n('C110','False as stated (C110_refuted: a roof that begins in the middle of a pixel is shown half a pixel further left, and is missing from a pixel it covers). Proved: the extent, the anchor and the size of the image and every pixel, where each face is displaced to the left and up by exactly the rest of the distance of its own upper left corner to that of the image, divided by the pixel size (C110_mesh_partial); no displacement for faces whose corner is on the grid (C110_aligned_partial); the whole program, for any input format (C110_scene_partial) from the text of an OBJ file (C110_obj_partial) and from a directory of OFF files (C110_off_partial). Closed buildings, whose faces lie one above another: the pixels show the parts of the faces that are seen from above, each displaced by the rest of its own corner, up to 32767 parts (C110_visible_partial, C110_visible_scene_partial, C110_visible_obj_partial, C110_visible_off_partial). Partial: the displacement; straight angles and faces whose projection degenerates are excluded.')
n('C111','C111_exact and C111_format_exact say which lines are accepted, C111_values, C111_format_values and C111_formats_values what the program gets, C111_program, C111_format_program, C111_formats_program, C111_refused and C111_format_refused what is done. C111_pictures_partial and C111_convert go from the words typed to the pictures of C110 and the files of C108. The last sentence is false (C111_refuted, C111_cache_refused): --cache is in the help and refused in every line; it is in the map only since there is no blank line between the usage and the options, so that the descriptions become part of the last alternative. C111_idle: without save and --graphs nothing is written, even with rasterize; C111_incomplete: cityformat without path or output format accepts the line, writes nothing and ends with 0. docopt is modelled from its published source.')
n('C112','C112_mesh_partial: the footprint of such a building can always be made; its image is defined exactly if the footprint has a face, and that is so if one face that is not vertical has no straight angle. C112_obj_partial and C112_program_partial: the whole run on an OBJ file, from the words of the command line. Missing, and false (C112_refuted, on the flat roof with a fifth corner in a side): buildings all of whose faces have a straight angle. C112_one_bad: one such building among others: all vector files are written, then the behaviour is undefined and no image of any building is made.')
n('C113','Partial: the settings say Rasterizing: true for the word rasterize without save, a run that makes no image and reports none (C113_refuted). Everything else of the statement is proved; C113_stderr, C113_3ds and their versions for cityformat treat all input formats: in the format 3DS a missing document is reported on the standard error stream even when the run ends well. Texts of what() and what the libraries print themselves are not modelled.')
n('C114','Partial: cityformat --version gives the name orthoproject (cityformat.cpp:98, C114_refuted). The rest is proved for both tools.')
n('C115','Proved: C115_done_partial (whatever happens, the terminal shows the first steps as done, then at most one step without its end and one message of an exception, and what the steps shown as done have made is on the disk at the end: dual graphs, shape files, attributes, the sum, the images, with their contents), C115_silent_partial (nothing on the standard error stream: everything asked for is there), C115_vectors_partial (the same, said of the shape files). Missing, because false: C115_refuted, a directory in the place of a file of attributes or of a dual graph: the stream is not opened, nobody looks, the step is shown as done. If two buildings have the same name, the file is that of one of them. Runs that end in undefined behaviour are excluded (GDAL, C86).')
n('C116','Proved: C116_heights_partial (the vector files made after the conversion hold footprints with the heights of the meshes of the OBJ file), C116_image_partial and C116_visible_partial (the same of the images, for faces that do not overlap and for faces one above another), C116_same_partial (drawing the OBJ file and drawing the directory made of it: footprints with the same name, reference point, EPSG and heights). Missing, because false: C116_refuted, a law-abiding library that begins a face at the second corner of the polygon: each conversion turns the polygon by one, and a roof with a straight angle that is drawn from the OBJ file is lost when the directory made of it is drawn, since the plane of a face is taken from its first three corners (face_projection.cpp).')
n('C117','Proved for both tools with their messages, and for the programs from the typed command line (docopt). What the 3DS readers print themselves is required to be the same in the two states.')
n('C118','Runs one after the other; runs at the same time are C120. The order in which the system lists the OFF files of a directory is required to depend on these files only. C118_one_directory shows that the condition is needed.')
n('C119','Laws of the environment: the order in which the OFF files of a directory are listed depends on them only; what the 3DS readers print depends on their files. For cityformat the conditions are sufficient; whether they are necessary is not claimed.')
n('C120','Model/Process has the tools as sequences of calls; C120_alone and C120_programs prove that a process left alone does what the functions of Model/Console (C67, C86, C113) say. A file is read in one call; files are written in any number of calls with arbitrary contents in between. C120_one_directory shows that the condition is needed.')
n('C121','For whole tools, with the images and the vector files; C99 has crashes while a scene is written and C119 complete runs. Job.Tidy is the condition of C119. C121_power_failure is about a crowd of separate runs that are killed at any moment. C121_in_place shows that a condition is needed for cityformat.')
n('C122','What CGAL writes for polygons, planes and boxes is a parameter: one line without the letter R; C122_ascii is for the text notation of CGAL.')
n('C123','False as it stands (C123_refuted): a file that cannot be opened is silently not written (io_off.cpp, io_obj.cpp). C123_silent_partial: these are the only exceptions, an OFF file with a directory in its place and an OBJ file that cannot be opened; C123_obj: an OBJ file that could be opened at the beginning is there. Names of objects with slashes are left out for OFF.')
n('C124','False as stated (C124_refuted): only the first word of a name is read, and of the objects whose names begin with the same word only the first is kept: north wing.off and north tower.off give one object north. Proved for names of any number of words which objects are found (C124_words), that none is lost exactly if the first words are different (C124_exact), and for different names of one word that every object is found under its name with its polygons, and nothing else (C124_found_partial).')
n('C125','False as stated (C125_refuted): the class releases a raw pointer in its destructor and leaves copying to the compiler. After any program without copies, destroying a handler and its copy is undefined in either order (C125_copy); an assignment loses one file and releases the other twice (C125_assign); the handler of a file that lib3ds cannot load cannot be destroyed (C125_unreadable). Proved: programs without copies and assignments that read loadable files are never undefined and every file in memory has exactly one handler, so that none is left at the end (C125_owned_partial); a reading session leaves nothing (C125_reading); a writing session leaves the meshes of all lists but the last and an array per face (C125_writing, C125_triangles), and one mesh if a write throws (C125_failed_write).')
n('C126','False as stated (C126_refuted). Proved is exactly what stays: after an export the descriptions of 5 or 8 fields, a polygon per facet, a ring per boundary and a point per vertex (C126_write_partial, summed over a run in C126_run), with the open file and a feature if GDAL refuses a facet (C126_refused); an export gives everything back exactly if it does not get its file (C126_write_exact). An import leaves a point per vertex (C126_read_partial, C126_read_exact), and the open file and a feature if it fails (C126_read_failed). Writing an image leaves nothing unless GDAL refuses the band (C126_image_write); reading one leaves its buffer (C126_image_read). The outcomes are those of the model of files (C126_same).')
n('C127','C127_again and C127_failures (a single failure, any number), C127_process for the tool as a process, C127_together for several tools on separate scenes; C127_elsewhere and C127_no_litter say what the failure may touch; C127_killed says that a killed process is the case in which nothing is lost. The condition Job.Tidy (the scene is not a place of a result) is needed: C127_in_place. What GDAL and Assimp write is a file whose text may be anything until it is closed and, after the failure, at any time. Not promised by the code, and an example in the file: that a result is on the disk once the tool has ended; no stream is synchronised.')
n('C128','C128_same_off, C128_same_obj, C128_same and C128_same_gis: the functions with texts are the functions of the other properties when the texts are left out. C128_missing_partial: the OFF and OBJ readers say that a file is missing, or that the mode forbids reading, exactly when this is so; C128_which: the text contains the path and determines it; C128_off_partial: each text of the OFF reader and the contents that cause it, exactly for five of the six; C128_never: two texts of the source are never given because the vectors they check have the right length by construction; C128_format: the texts of the constructor of the handler of scenes; C128_terrain: a directory without terrain.off; C128_handlers: the texts of the vector, raster and 3DS handlers. False of the code: a scene tree that does not exist, a path that is not a directory (C128_refuted, C128_directory_refuted: neither names the path), and the text of a face out of bounds, whose first words are always overwritten by the numbers (C128_bounds). C128_obj_partial: the three texts of the OBJ reader and the contents that cause them. Missing: the texts that the standard library, GDAL, Assimp and Pugixml make (none in the model).')
json.dump(N,open('/verif/tools/notes.json','w'),indent=1)
