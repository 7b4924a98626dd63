{"id": "C01", "title": "Batched adjacency is the disjoint union", "statement": "Batching a list of cochains of one dimension (or complexes) yields upper and lower adjacencies that are, column by column and in order, the adjacencies of the items with every cell index shifted by the total number of cells of that dimension in the preceding items. No column is lost, duplicated, reordered or shifted by another amount; items that have no adjacency contribute no column but still contribute their cells to the shift.", "quantifier": "every list of cochains, of any length, with any mixture of present and absent adjacencies and any cell counts (including zero)", "why_tests_cant": "The offset is a running sum over an unbounded list, interleaved with optional attributes; a test fixes one list and one pattern of missing attributes.", "anchors": ["data/complex.py:CochainBatch.from_cochain_list", "data/complex.py:Cochain.__inc__", "data/complex.py:Cochain.num_cells"]}
{"id": "C02", "title": "Batched incidence and shared-cell ids use the offset of the right dimension", "statement": "In a batch, the boundary incidence rows are shifted by the running number of cells one dimension below (row 0) and of the same dimension (row 1); shared-boundary ids are shifted by the running count one dimension below and shared-coboundary ids by the running count one dimension above (not so, with a counterexample, for complexes cut off by the argument dimension), where an item whose complex has no cells one dimension above/below adds nothing.", "quantifier": "every list of complexes, including lists mixing complexes of different dimensions", "why_tests_cant": "The three offsets differ and agree by accident on small symmetric samples; the property quantifies over all mixtures of dimensions and counts.", "anchors": ["data/complex.py:Cochain.__inc__", "data/complex.py:Cochain.num_cells_down", "data/complex.py:Cochain.num_cells_up", "data/complex.py:ComplexBatch.from_complex_list", "data/complex.py:Complex._consolidate"]}
{"id": "C03", "title": "Batch assignment vector and pointers are exact", "statement": "When every item knows its number of cells, the batch vector lists item number i exactly n_i times, in order, and the pointer vector starts at 0, has one more entry than items and its consecutive differences are the cell counts, so row r belongs to item i iff ptr[i] <= r < ptr[i+1].", "quantifier": "every list of cochains with known cell counts", "why_tests_cant": "Holds for unbounded lists with arbitrary, including zero, counts.", "anchors": ["data/complex.py:CochainBatch.from_cochain_list"]}
{"id": "C04", "title": "Batched indices stay in range and never connect different complexes", "statement": "If every item's indices are valid (adjacency and incidence indices below the item's counts, shared ids below the neighbouring counts), every index of the batch is valid for the batched counts, and both ends of every adjacency or incidence column of the batch belong to the same item according to the batch vectors of the respective dimensions.", "quantifier": "every list of valid complexes", "why_tests_cant": "A leak between two complexes would depend on a particular pair of counts in an unbounded space.", "anchors": ["data/complex.py:CochainBatch.from_cochain_list", "data/complex.py:ComplexBatch.from_complex_list"]}
{"id": "C05", "title": "A batch determines its items", "statement": "From a batch of valid complexes and the per-dimension counts, every item's adjacencies, incidences, shared ids and, if every dimension with cells carries features, features can be recovered exactly (unshifting the i-th segment gives back item i): batching loses no structure.", "quantifier": "every list of valid complexes", "why_tests_cant": "Injectivity/round-trip over an unbounded input space.", "anchors": ["data/complex.py:CochainBatch.from_cochain_list", "data/complex.py:ComplexBatch.from_complex_list"]}
{"id": "C06", "title": "Batch-level labels, dimension and size", "statement": "Batching complexes reports the number of complexes given, dimension equal to the largest item dimension capped by the requested maximum, and labels equal to the concatenation of the item labels in order when every item has labels, and no labels at all as soon as one item has none (the labels of the others are silently dropped).", "quantifier": "every non-empty list of complexes and every max_dim", "why_tests_cant": "Mixtures of labelled and unlabelled items and of dimensions are unbounded.", "anchors": ["data/complex.py:ComplexBatch.from_complex_list", "data/complex.py:ComplexBatch.__init__"]}
{"id": "C07", "title": "Batched cell counts add up", "statement": "The number of cells a batch reports in a dimension is the sum of the items' counts, provided every item of that dimension carries features. (It can be wrong otherwise: counts given explicitly are dropped by batching, and then an item whose cells are only counted explicitly is lost; the exact behaviour is characterised.)", "quantifier": "every list of cochains", "why_tests_cant": "Failing inputs need a particular mixture of feature-less, explicitly counted items.", "anchors": ["data/complex.py:Cochain.num_cells", "data/complex.py:CochainBatch.from_cochain_list"]}
{"id": "C08", "title": "Complex construction makes neighbour counts coherent", "statement": "After constructing a complex from cochains, the number of lower (upper) neighbours' cells reported by the cochain of dimension d equals the number of cells reported by the cochain of dimension d-1 (d+1); the top dimension keeps what its cochain reports. Construction never changes a cochain's own number of cells. Counts that disagree with the neighbours before construction are silently overwritten, never rejected.", "quantifier": "every list of cochains accepted by the constructor", "why_tests_cant": "Ranges over all lists of cochains and all ways counts can be specified (explicitly, by features, by incidence).", "anchors": ["data/complex.py:Complex._consolidate", "data/complex.py:Cochain.num_cells"]}
{"id": "C09", "title": "Exact acceptance condition of the complex constructor", "statement": "A complex can be built iff at least one cochain is given, at least dimension+1 cochains are given, the i-th cochain has dimension i for i up to the dimension, and each cochain used as a neighbour knows its number of cells; otherwise the stated error is raised.", "quantifier": "every list of cochains and every requested dimension", "why_tests_cant": "Decision logic over an unbounded input.", "anchors": ["data/complex.py:Complex.__init__", "data/complex.py:Complex._consolidate"]}
{"id": "C10", "title": "Feature assignment never changes the number of cells", "statement": "Assigning a feature matrix to a cochain of known size succeeds only if it has one row per cell, and afterwards the reported number of cells is unchanged; setting features on a whole complex succeeds iff there are at most dimension+1 matrices and each has the right number of rows, in which case exactly those dimensions are updated and adjacency/incidence is untouched. On failure, the dimensions before the failing one remain overwritten (no roll-back).", "quantifier": "every complex and every list of feature matrices", "why_tests_cant": "All failure positions in all complexes.", "anchors": ["data/complex.py:Cochain.x", "data/complex.py:Complex.set_xs"]}
{"id": "C11", "title": "Message-passing parameters select exactly the right features", "statement": "For a dimension d of a complex the parameters expose: as upper messages' attributes the features of the shared (d+1)-cell of every upper-adjacency column; as lower attributes the features of the shared (d-1)-cell of every lower-adjacency column; as boundary features the whole (d-1)-feature matrix; each present exactly when the corresponding structure/feature exists and the caller's switch (max_dim/include_top_features/include_down_features/include_boundary_features) asks for it. With down features excluded no lower structure is exposed at all.", "quantifier": "every complex, every dimension, every switch setting", "why_tests_cant": "Combinatorics of optional attributes times unbounded complexes.", "anchors": ["data/complex.py:Complex.get_cochain_params", "data/complex.py:Complex.get_all_cochain_params"]}
{"id": "C12", "title": "Propagation computes neighbourhood aggregation", "statement": "With sum aggregation, the up (down) message of cell c is the sum over the upper (lower) adjacency columns whose target is c of the message built from the source cell's features and the column's attribute; the boundary message is the sum over incidence columns with cell c of the boundary cell's message. Every cell gets a row, and cells without neighbours, or dimensions without that adjacency, get exactly zero.", "quantifier": "every adjacency, feature matrix and message function", "why_tests_cant": "Must hold for every graph size and multiplicity of columns.", "anchors": ["mp/cell_mp.py:CochainMessagePassing.propagate", "mp/cell_mp.py:CochainMessagePassing.__collect__", "mp/cell_mp.py:CochainMessagePassing.update", "mp/cell_mp.py:CochainMessagePassing.__lift__"]}
{"id": "C13", "title": "Adjacency column order is irrelevant", "statement": "Permuting the columns of an adjacency (together with its attributes) does not change the result of message passing, for any order-insensitive aggregation (sum, mean, max).", "quantifier": "every permutation of every adjacency list", "why_tests_cant": "Factorially many orders for each input.", "anchors": ["mp/cell_mp.py:CochainMessagePassing.aggregate_up", "mp/cell_mp.py:CochainMessagePassing.propagate"]}
{"id": "C14", "title": "Convolution layers are equivariant to cell relabelling", "statement": "Renaming the cells of each dimension by any permutation (of features, adjacencies, incidences and shared ids consistently) renames the rows of the outputs of the CIN, SparseCIN and CIN++ convolutions by the same permutation and changes nothing else.", "quantifier": "every valid complex, every family of permutations, every choice of learned maps", "why_tests_cant": "Quantifies over all permutations and all parameter values.", "anchors": ["mp/layers.py:SparseCINCochainConv.forward", "mp/layers.py:CINCochainConv.forward", "mp/layers.py:CINppCochainConv.forward"]}
{"id": "C15", "title": "Layers commute with batching", "statement": "Applying a convolution layer to a batch that keeps all dimensions of its complexes gives, in each dimension, the concatenation of the results of applying it to each complex separately (complexes without cells of that dimension contribute no rows).", "quantifier": "every list of valid complexes, every choice of learned maps applied row by row (evaluation mode)", "why_tests_cant": "Unbounded list of complexes and parameters.", "anchors": ["mp/layers.py:SparseCINConv.forward", "mp/layers.py:SparseCINCochainConv.forward", "data/complex.py:ComplexBatch.from_complex_list"]}
{"id": "C16", "title": "Batching does not change predictions", "statement": "In evaluation mode the prediction of the SparseCIN model for a complex inside a batch is the prediction for the complex alone: the output of a batch is the list of the outputs of singleton batches, provided every complex has at least one vertex.", "quantifier": "every list of valid complexes with features and at least one vertex, any number of layers, readout dims, jump mode and readout operation, all parameters", "why_tests_cant": "Covers every batch composition, including mixtures of dimensions, and all parameters.", "anchors": ["mp/models.py:SparseCIN.forward", "mp/models.py:SparseCIN.pool_complex", "mp/nn.py:pool_complex", "data/complex.py:ComplexBatch.from_complex_list"]}
{"id": "C17", "title": "Predictions do not depend on cell numbering", "statement": "The prediction of SparseCIN on a complex is unchanged if the cells of every dimension are renumbered consistently.", "quantifier": "every valid complex, every family of permutations, every parameter value", "why_tests_cant": "All permutations, all depths.", "anchors": ["mp/models.py:SparseCIN.forward", "mp/nn.py:pool_complex"]}
{"id": "C18", "title": "Pooling returns one exact row per complex", "statement": "Sum pooling returns for each dimension up to max_dim one row per complex: the sum of the features of that complex's cells, zero when it has none; mean pooling divides by the number of cells. The number of rows is the index of the last complex with a vertex plus one, so trailing complexes without vertices are silently dropped, and nothing else is.", "quantifier": "every batch assignment vector and feature matrix", "why_tests_cant": "The failure needs a vertex-less last complex; the law is over all batches.", "anchors": ["mp/nn.py:pool_complex", "mp/models.py:SparseCIN.pool_complex"]}
{"id": "C19", "title": "CIN++ output does not depend on lower adjacency", "statement": "As built by the library's models, the CIN++ model's prediction is the same for any two complexes that differ only in their lower adjacency (lower index and shared boundaries), although the layer is documented to use lower messages: its down message is always the zero row plus (1+eps) times the input.", "quantifier": "every complex and every parameter value", "why_tests_cant": "Independence from an argument is a statement about all pairs of inputs.", "anchors": ["mp/layers.py:CINppCochainConv", "mp/layers.py:SparseCINCochainConv.__init__", "mp/models.py:CINpp"]}
{"id": "C20", "title": "The no-rings model ignores 2-cells", "statement": "The prediction of the SparseCIN model variant without rings is unchanged by removing, adding or altering the 2-cells of the complex (features, incidences and the edges' upper adjacency).", "quantifier": "every pair of complexes agreeing on vertices and edges, every parameter value", "why_tests_cant": "Non-interference over all pairs of inputs.", "anchors": ["mp/molec_models.py:EmbedSparseCINNoRings.forward", "data/complex.py:Complex.get_all_cochain_params"]}
{"id": "C21", "title": "Initial ring features are vertex sums", "statement": "With sum reduction, the reduced initial feature of an edge is the sum of its two end points' features, and the reduced feature of a 2-cell derived from edges is the sum of the features of its vertices, each counted once.", "quantifier": "every ring complex (cycles of any length) and every vertex features", "why_tests_cant": "Cycle length and number are unbounded.", "anchors": ["mp/layers.py:InitReduceConv.forward", "mp/layers.py:AbstractEmbedVEWithReduce.forward"]}
{"id": "C22", "title": "Orientation equivariance and invariance", "statement": "If the orientation of any set of edges is flipped (features negated, relative orientations of adjacency columns multiplied by both ends' signs), the oriented convolution with odd activation and bias-free linear maps outputs the same features with the flipped rows negated, and the edge-orientation model's prediction (which takes absolute values before pooling) is unchanged.", "quantifier": "every signed edge complex, every set of flipped edges, any number of layers, every parameter value", "why_tests_cant": "Exponentially many sign patterns for every input.", "anchors": ["mp/layers.py:OrientedConv.forward", "mp/models.py:EdgeOrient.forward"]}
{"id": "C23", "title": "Cell identifiers are consecutive and unique", "statement": "Lifting assigns the cells of each dimension the identifiers 0..n-1 in the order they are enumerated, each exactly once, and the vertex with identifier v is the input's node v.", "quantifier": "every simplicial complex / graph with rings", "why_tests_cant": "Bijectivity for all inputs.", "anchors": ["data/utils.py:build_tables", "data/utils.py:build_tables_with_rings"]}
{"id": "C24", "title": "Boundary incidence lists exactly the codimension-one faces", "statement": "In a lifted complex, the incidence of dimension d contains the column (f, c) iff cell f of dimension d-1 is a face of cell c of dimension d, each pair exactly once; a simplex of dimension d has exactly d+1 boundary cells.", "quantifier": "every face-closed simplicial complex of any dimension", "why_tests_cant": "All complexes, all dimensions.", "anchors": ["data/utils.py:extract_boundaries_and_coboundaries_from_simplex_tree", "data/utils.py:generate_cochain", "data/utils.py:get_simplex_boundaries"]}
{"id": "C25", "title": "Upper adjacency is sharing a coface", "statement": "In a lifted complex, the upper adjacency of dimension d with its shared coboundary ids contains the column (a,b) with shared cell c iff a and b are distinct d-cells both in the boundary of the (d+1)-cell c; each triple (a,b,c) occurs exactly once, so the adjacency is symmetric and loop-free.", "quantifier": "every face-closed complex", "why_tests_cant": "Characterises an unbounded output for all inputs.", "anchors": ["data/utils.py:build_adj", "data/utils.py:generate_cochain"]}
{"id": "C26", "title": "Lower adjacency is sharing a face, and only on request", "statement": "With include_down_adj, the lower adjacency with shared boundary ids contains (a,b) with shared cell s iff a and b are distinct d-cells both having s in their boundary, each triple exactly once; without it there is no lower adjacency. The other outputs do not depend on the switch (for whole complexes, with cliques and with rings, see also C94).", "quantifier": "every face-closed complex", "why_tests_cant": "As above; the independence is over pairs of runs.", "anchors": ["data/utils.py:build_adj", "data/utils.py:generate_cochain"]}
{"id": "C27", "title": "Clique lifting contains exactly the cliques", "statement": "The clique complex of a graph up to dimension k has as d-cells exactly the sets of d+1 pairwise adjacent vertices, d<=max(k,1), with all isolated vertices kept; the result does not depend on the order, direction or multiplicity of the edge list.", "quantifier": "every graph given as an edge list and every maximal dimension", "why_tests_cant": "All graphs.", "anchors": ["data/utils.py:pyg_to_simplex_tree", "data/utils.py:compute_clique_complex_with_gudhi"]}
{"id": "C28", "title": "Lifting never trips its own consistency checks", "statement": "For every graph with at least one node and feature matrix with one row per node, the assertions made while generating the cochains of its clique complex (counts against features, against incidences, against shared ids) all hold, so lifting succeeds and returns a valid complex.", "quantifier": "every graph", "why_tests_cant": "Absence of assertion failures over all inputs.", "anchors": ["data/utils.py:generate_cochain", "data/utils.py:compute_clique_complex_with_gudhi", "data/complex.py:Complex._consolidate"]}
{"id": "C29", "title": "Constructed features aggregate the vertices of a cell", "statement": "The constructed features of dimension d have one row per d-cell, row c being the reduction (sum/mean/max) of the features of exactly the vertices of cell c.", "quantifier": "every complex, feature matrix and reduction", "why_tests_cant": "All inputs.", "anchors": ["data/utils.py:construct_features"]}
{"id": "C30", "title": "Label extraction separates graph and node labels", "statement": "Labels of a graph are treated as complex labels iff they have length one, and as vertex labels iff their length is the number of nodes; a one-node graph's single label is a complex label; anything else is rejected. Vertex labels end up on the 0-cells in order, no other dimension gets labels.", "quantifier": "every label vector and complex size", "why_tests_cant": "The overlap case (one node) and the rejection hold for all sizes.", "anchors": ["data/utils.py:extract_labels"]}
{"id": "C31", "title": "Each induced cycle becomes exactly one ring", "statement": "Ring lifting keeps one ring per vertex set of the reported induced cycles, whatever the number of times and rotations/reflections in which a cycle is reported, with lengths between 3 and the requested maximum; the vertex set determines the cycle.", "quantifier": "every simple graph and maximal ring size", "why_tests_cant": "All graphs; every cycle is reported 2k times.", "anchors": ["data/utils.py:get_rings"]}
{"id": "C32", "title": "Ring boundary edges are the induced edges", "statement": "The boundary of a ring is exactly the set of graph edges with both ends on the ring, which for an induced cycle is the cycle itself: as many edges as vertices, each ring vertex on exactly two of them.", "quantifier": "every induced cycle of every graph", "why_tests_cant": "All cycle lengths.", "anchors": ["data/utils.py:get_ring_boundaries", "data/utils.py:extract_boundaries_and_coboundaries_with_rings"]}
{"id": "C33", "title": "Edge features are attached to the right edge or rejected", "statement": "When edge features are supplied for both directions of each edge, lifting to a ring complex succeeds iff the two directions agree, and then edge cell e has the features the input listed for that edge, independently of the order of the input columns.", "quantifier": "every edge list and edge feature matrix", "why_tests_cant": "All orders of columns.", "anchors": ["data/utils.py:compute_ring_2complex"]}
{"id": "C34", "title": "Isomorphic graphs get the same prediction", "statement": "Lifting two isomorphic featured graphs to clique complexes and running SparseCIN gives the same prediction, whatever the node numbering and edge order.", "quantifier": "every pair of isomorphic graphs, every parameter value", "why_tests_cant": "The headline invariance of the library; all graphs and all permutations.", "anchors": ["data/utils.py:compute_clique_complex_with_gudhi", "mp/models.py:SparseCIN.forward"]}
{"id": "C35", "title": "Dataset conversion keeps order, dimension and feature widths", "statement": "Converting a list of graphs returns one complex per graph in input order, the reported dimension is the maximum of the complexes' dimensions, and the reported feature counts per dimension are those of the complexes; conversion fails if two complexes disagree on a feature width.", "quantifier": "every list of graphs", "why_tests_cant": "Unbounded lists.", "anchors": ["data/utils.py:convert_graph_dataset_with_gudhi", "data/utils.py:convert_graph_dataset_with_rings"]}
{"id": "C36", "title": "Stored complexes are read back unchanged", "statement": "Collating a list of complexes into the dataset's storage and reading item i back gives complex i: same dimension, labels, features, adjacencies, incidences and counts, except that an empty matrix is read back as absent. Complexes above the maximum dimension, with a dimension without cells, or with a label when the first complex has none are stored without complaint but every read of them fails.", "quantifier": "every list of complexes (of mixed dimensions up to max_dim) and every index", "why_tests_cant": "Round trip over unbounded lists with optional attributes.", "anchors": ["data/datasets/dataset.py:InMemoryComplexDataset.collate", "data/datasets/dataset.py:InMemoryComplexDataset.get", "data/datasets/dataset.py:InMemoryComplexDataset._get_cochain"]}
{"id": "C37", "title": "Dataset length is the number of stored complexes", "statement": "The reported length of a collated dataset equals the number of complexes stored, in whatever order the slices are iterated, provided some stored cochain has an attribute; otherwise it is 0.", "quantifier": "every list of complexes", "why_tests_cant": "Unbounded lists.", "anchors": ["data/datasets/dataset.py:InMemoryComplexDataset.len", "data/datasets/dataset.py:InMemoryComplexDataset.collate"]}
{"id": "C38", "title": "Repeated reads agree and caching is transparent", "statement": "Any sequence of item reads returns, for each index, the same complex each time, and the cache never changes what is returned, irrespective of the order and repetition of reads (failing reads included), provided some stored cochain has an attribute; otherwise every read fails.", "quantifier": "every sequence of reads", "why_tests_cant": "All histories of calls.", "anchors": ["data/datasets/dataset.py:InMemoryComplexDataset.get"]}
{"id": "C39", "title": "Copying a stored dataset always fails", "statement": "The dataset copy operation never succeeds: it raises TypeError for every dataset and index selection whose items can be read, because it calls collate without its mandatory max_dim argument, and otherwise the error of the read.", "quantifier": "every dataset and selection", "why_tests_cant": "Universal negative.", "anchors": ["data/datasets/dataset.py:InMemoryComplexDataset.copy", "data/datasets/dataset.py:InMemoryComplexDataset.collate"]}
{"id": "C40", "title": "Distinct processing options use distinct cache folders", "statement": "For the TU and SR datasets (init method names without separators) two configurations that differ in max_dim, cell type, init method, ring size or down adjacency never share the processed folder; nor do ZINC, OGB, CSL, peptides, flow or ocean configurations that differ in the options named in the folder. Not all options are named: down-adjacency on/off share a folder for ZINC, OGB and the peptides, degree_as_tag on/off for TU, and the flow sample counts, so stale data can be read.", "quantifier": "every pair of option settings", "why_tests_cant": "Injectivity of a string encoding over all settings.", "anchors": ["data/datasets/dataset.py:ComplexDataset.processed_dir", "data/datasets/tu.py:TUDataset.processed_dir", "data/datasets/sr.py:SRDataset.processed_dir", "data/datasets/zinc.py:ZincDataset.processed_dir", "data/datasets/ogb.py:OGBDataset.processed_dir", "data/datasets/csl.py:CSLDataset.processed_dir", "data/datasets/peptides_functional.py:PeptidesFunctionalDataset.processed_dir", "data/datasets/peptides_structural.py:PeptidesStructuralDataset.processed_dir", "data/datasets/flow.py:FlowDataset.processed_dir", "data/datasets/ocean.py:OceanDataset.processed_dir"]}
{"id": "C41", "title": "Boundary of a boundary is zero", "statement": "The node-edge and edge-triangle boundary matrices extracted from a triangulation satisfy B1 * B2 = 0.", "quantifier": "every triangulation (list of vertex triples)", "why_tests_cant": "All triangulations and vertex orders.", "anchors": ["data/datasets/flow_utils.py:extract_boundary_matrices", "data/datasets/flow_utils.py:create_graph_from_triangulation"]}
{"id": "C42", "title": "A trajectory's flow has the trajectory's end points as divergence", "statement": "The edge flow computed from any walk along edges of the graph has divergence (node-edge incidence matrix times flow) +1 at its last vertex, -1 at its first vertex and 0 elsewhere; it is zero everywhere when the walk is closed. A walk using a missing edge is rejected.", "quantifier": "every walk in every graph", "why_tests_cant": "Unbounded walks.", "anchors": ["data/datasets/ocean_utils.py:path_to_flow", "data/datasets/ocean_utils.py:incidence_matrices", "data/datasets/flow_utils.py:generate_trajectory"]}
{"id": "C43", "title": "Stripping a path removes backtracking only", "statement": "Stripping a path yields a walk with the same first and last vertex and the same edge flow, that never goes back along the edge just taken (no pattern a,b,a); stripping again changes nothing.", "quantifier": "every walk", "why_tests_cant": "Unbounded walks with nested backtracking.", "anchors": ["data/datasets/ocean_utils.py:strip_paths"]}
{"id": "C44", "title": "Generated trajectories are simple paths", "statement": "A generated trajectory starts at the sampled start, ends at the sampled end, follows edges, and visits no vertex twice; its flow is +1/-1 exactly on traversed edges by direction and 0 elsewhere.", "quantifier": "every graph and every sequence of random choices", "why_tests_cant": "All random schedules.", "anchors": ["data/datasets/flow_utils.py:generate_trajectory"]}
{"id": "C45", "title": "Cutting a hole keeps geometry", "statement": "After removing a region, the remaining triangles have the same corner coordinates as before in the same order, indices are in range of the remaining points, every remaining point lies in a triangle, and no remaining triangle has a corner inside the region.", "quantifier": "every point set, triangle list and region", "why_tests_cant": "Renumbering by repeated decrement is correct only for descending order; all inputs.", "anchors": ["data/datasets/flow_utils.py:create_hole"]}
{"id": "C46", "title": "Edge adjacency from boundary matrices is symmetric and signed correctly", "statement": "The adjacency extracted from a boundary matrix contains both directions of each pair of distinct edges sharing a cell, with orientation the product of their incidence signs, and changing edge orientations by a sign matrix negates features and multiplies adjacency orientations by both ends' signs; predictions of networks that are blind to orientations on a batch built from such matrices do not depend on the sign matrices.", "quantifier": "every boundary matrix and sign vector", "why_tests_cant": "All matrices and sign patterns.", "anchors": ["data/datasets/flow_utils.py:extract_adj_from_boundary", "data/datasets/flow_utils.py:build_cochain", "data/datasets/flow_utils.py:get_orient_matrix"]}
{"id": "C47", "title": "The ocean train/test mask is a partition of the right size", "statement": "The train and test index sets of the ocean dataset are disjoint and cover all n paths, because round(0.8 n)+round(0.2 n)=n for every n.", "quantifier": "every number of paths", "why_tests_cant": "Rounding boundary cases for all n (round-half-even).", "anchors": ["data/datasets/ocean_utils.py:load_ocean_dataset"]}
{"id": "C48", "title": "Ring-transfer graphs are cycles carrying the label at the far node", "statement": "The generated graph on n>=3 nodes has exactly the edges of the n-cycle in both directions, node n/2 carries the one-hot label, node 0 is zero and is the only masked node, and the graph label is the class.", "quantifier": "every n and class", "why_tests_cant": "All sizes.", "anchors": ["data/datasets/ring_utils.py:generate_ring_transfer_graph"]}
{"id": "C49", "title": "Ring-transfer labels are balanced or generation fails", "statement": "Generating s ring-transfer samples with c classes on rings with at least one node succeeds iff c > 0 and c divides s; every class then gets exactly s/c samples. Otherwise it raises: ZeroDivisionError when c = 0 or 0 < s < c, IndexError in the remaining cases.", "quantifier": "every number of samples and classes", "why_tests_cant": "Arithmetic side condition over all pairs.", "anchors": ["data/datasets/ring_utils.py:generate_ring_transfer_graph_dataset"]}
{"id": "C50", "title": "Permutation-matrix validation accepts exactly the non-identity permutations", "statement": "For n>1 a square integer matrix passes validation iff it is the matrix of a permutation other than the identity; for n=1 iff it is [[1]].", "quantifier": "every matrix", "why_tests_cant": "All matrices.", "anchors": ["data/perm_utils.py:is_valid_permutation_matrix"]}
{"id": "C51", "title": "Permuting a graph is an isomorphism", "statement": "Permuting a simple graph with a valid matrix gives a graph with features, node labels and edges renamed by that permutation, graph-level labels unchanged.", "quantifier": "every simple graph and permutation", "why_tests_cant": "All permutations.", "anchors": ["data/perm_utils.py:permute_graph"]}
{"id": "C52", "title": "Isomorphism metric is the fraction of indistinguished pairs", "statement": "The isomorphism failure rate is the number of unordered pairs of predictions closer than eps divided by the number of pairs; it is 0 iff all pairs are eps-separated and does not depend on the order of predictions.", "quantifier": "every list of at least two predictions", "why_tests_cant": "All lists, all orders.", "anchors": ["exp/train_utils.py:Evaluator._isomorphism"]}
{"id": "C53", "title": "Reported best epoch is the first optimum", "statement": "The reported best epoch is the earliest epoch attaining the best validation score (max, or min when minimising); the reported validation and test scores are those of the model after that epoch, and the reported training score is that of the last epoch up to then at which it was evaluated (that epoch itself if the evaluation period is 1).", "quantifier": "every number of epochs, period, scheduler, and every behaviour of training and evaluation", "why_tests_cant": "All curves including ties.", "anchors": ["exp/run_exp.py:main"]}
{"id": "C54", "title": "Ring counts add up over splits", "statement": "The ring-count statistics of the whole dataset are, for each ring size, the concatenation of the per-graph counts of train, validation and test; per graph, the counts over all sizes add up to the number of rings found.", "quantifier": "every dataset and ring-size bound", "why_tests_cant": "All datasets.", "anchors": ["exp/count_rings.py:get_ring_count_for_graph", "exp/count_rings.py:combine_all_cards", "exp/count_rings.py:combine_all_counts"]}
{"id": "C55", "title": "ZINC splits partition the dataset in order", "statement": "The train/valid/test index lists are consecutive, disjoint and cover exactly the concatenated dataset; selecting a split returns the original graphs of that split in order.", "quantifier": "every triple of split sizes", "why_tests_cant": "All sizes.", "anchors": ["data/datasets/zinc.py:ZincDataset", "data/datasets/dataset.py:InMemoryComplexDataset.get_split"]}
{"id": "C56", "title": "Converting a complex to a graph keeps 1-skeleton", "statement": "The graph obtained from a complex has its vertex features, vertex adjacency as edges, edge features taken from the shared edges, and the complex's labels.", "quantifier": "every complex", "why_tests_cant": "All complexes.", "anchors": ["data/dummy_complexes.py:convert_to_graph"]}
{"id": "C57", "title": "Training skips exactly the degenerate batches", "statement": "A training epoch performs one optimiser step per batch whose every dimension has at least two cells and none for the others; the returned loss curve has one entry per step.", "quantifier": "every sequence of batches", "why_tests_cant": "All sequences.", "anchors": ["exp/train_utils.py:train"]}
{"id": "C58", "title": "TU files: labels and tags numbered by first occurrence, edges and one-hot features", "statement": "Reading a TU dataset file succeeds exactly if all listed neighbours are nodes and every graph has an edge. Labels and tags are then mapped injectively to 0,1,2,... in order of first occurrence throughout the file; the edge index has exactly the listed pairs in both directions; every node has a one-hot row and two nodes of any graphs have the same row iff they have the same tag (or, with degree_as_tag and no isolated last nodes, the same degree).", "quantifier": "every dataset file in the TU format, every order of iteration over sets", "why_tests_cant": "All sequences of labels.", "anchors": ["data/tu_utils.py:load_data", "data/tu_utils.py:S2V_to_PyG"]}
{"id": "C59", "title": "Per-node feature lookup follows dataset data", "statement": "The number of features reported for a dimension is the stored value when known, otherwise that of the complexes having that dimension, in every sequence of questions; it is None for a dimension up to the maximum that no complex has, an error above the maximum, and an error if two complexes disagree.", "quantifier": "every dataset and dimension", "why_tests_cant": "All datasets.", "anchors": ["data/datasets/dataset.py:ComplexDataset.num_features_in_dim", "data/datasets/dataset.py:ComplexDataset._look_up_num_features", "data/complex.py:Cochain.num_features"]}
{"id": "C60", "title": "Flow samples are split evenly between two classes", "statement": "With n >= 2 samples the synthetic flow dataset gives class 0 to the first floor(n/2) samples and class 1 to all others, so the class is always 0 or 1 and the sizes differ by at most one; with fewer than two (but at least one) samples generation fails with a ZeroDivisionError.", "quantifier": "every number of samples", "why_tests_cant": "All sizes, including the boundary sizes where integer division degenerates.", "anchors": ["data/datasets/flow_utils.py:load_flow_dataset"]}
{"id": "C61", "title": "Drifter paths are open and their class is antisymmetric", "statement": "The class of a drifter path depends only on its end points and the centre; the reversed path has the other class; a path whose end points are collinear with the centre is rejected. Every path that survives stripping and trimming of trajectories along graph edges follows edges, has at least four vertices, never returns at once and starts and ends at different vertices.", "quantifier": "every list of trajectories, every graph without loops, all coordinates of an ordered commutative ring", "why_tests_cant": "Unbounded trajectories with nested backtracking and all positions.", "anchors": ["data/datasets/ocean_utils.py:strip_paths", "data/datasets/ocean_utils.py:orientation", "data/datasets/ocean_utils.py:extract_label", "data/datasets/ocean_utils.py:load_ocean_dataset"]}
{"id": "C62", "title": "Evaluation does not depend on batching", "statement": "For every division of a dataset into non-empty batches, inference returns the predictions of the complexes passed one at a time, in the order of the dataset, and every metric gets the same value; accuracy, mean absolute error and isomorphism failure rate do not depend on the order of the dataset either. The mean loss does depend on the division.", "quantifier": "every dataset of ready complexes with vertices, every division into batches, every SparseCIN, CIN++ and CIN network and every metric", "why_tests_cant": "All divisions, networks and weights.", "anchors": ["exp/train_utils.py:infer", "exp/train_utils.py:eval", "exp/train_utils.py:Evaluator", "data/data_loading.py:DataLoader"]}
{"id": "C63", "title": "Embedding networks do not mix the complexes of a batch", "statement": "EmbedSparseCIN, EmbedCINpp, EmbedSparseCINNoRings and EmbedGIN in evaluation mode return for a batch exactly the predictions they return for its complexes alone, one per complex and in order; the prediction is that of a cell-by-cell specification (embedded vertices, embedded or reduced edges, halved reductions for 2-cells, then the layers and the readout), and it does not change when cells are renumbered or columns reordered, also when 2-cells or edges have no features of their own.", "quantifier": "every non-empty list of valid complexes of dimension at most 2 whose edges and 2-cells have boundaries, features given in all or in none of the complexes per dimension; every network with any weights, embeddings and permutation-invariant reduction; every renumbering", "why_tests_cant": "All complexes, batch compositions, weights and renumberings; the initial features are computed from the batched incidence, where an offset error only shows for particular compositions.", "anchors": ["mp/molec_models.py:EmbedSparseCIN.forward", "mp/molec_models.py:EmbedSparseCINNoRings.forward", "mp/molec_models.py:EmbedGIN.forward", "mp/layers.py:AbstractEmbedVEWithReduce.forward", "mp/layers.py:InitReduceConv.forward", "data/complex.py:ComplexBatch.from_complex_list"]}
{"id": "C64", "title": "Ring-lifted isomorphic graphs get the same prediction", "statement": "Lifting two isomorphic graphs, with features on nodes and possibly on edges, to ring complexes gives complexes that are renumberings of each other, and EmbedSparseCIN, EmbedCINpp, EmbedSparseCINNoRings and EmbedGIN (and SparseCIN, CIN++ and CIN when edges and rings get features) return the same predictions for batches of them, whatever the numbering of nodes, the order, direction and multiplicity of the columns of the edge index, and the order in which the simplex tree and the cycle search report what they find.", "quantifier": "every pair of batches of pairwise isomorphic graphs, every ring size limit, every combination of init options, every parameter value, every pair of correct simplex trees and cycle searches", "why_tests_cant": "All graphs, all isomorphisms, all orders in which sets of rings are iterated; this is the invariance the molecular experiments rely on.", "anchors": ["data/utils.py:compute_ring_2complex", "data/utils.py:get_rings", "data/utils.py:build_tables_with_rings", "mp/molec_models.py:EmbedSparseCIN.forward", "mp/molec_models.py:EmbedGIN.forward"]}
{"id": "C65", "title": "Networks are at most as powerful as cellular colour refinement", "statement": "If two complexes have the same colours, with multiplicities and in every dimension, after as many rounds of cellular colour refinement as a network has layers, then SparseCIN and CIN++ give them the same prediction in evaluation mode, whatever the parameters; likewise CIN, when the refinement also looks at lower neighbours. Renumbered complexes have the same colours after any number of rounds.", "quantifier": "every pair of batches of complexes that are pairwise alike, every network with at most that many layers, every parameter value", "why_tests_cant": "All pairs of complexes and all parameter values: a test can only try some weights, and cannot exhibit that no weights separate two complexes.", "anchors": ["mp/models.py:SparseCIN.forward", "mp/models.py:CIN0.forward", "mp/layers.py:SparseCINCochainConv.forward", "mp/layers.py:CINppCochainConv.forward", "mp/layers.py:CINCochainConv.forward"]}
{"id": "C66", "title": "SparseCIN is as powerful as cellular colour refinement", "statement": "For every number n > 0 of layers and every maximal dimension there are parameters of a SparseCIN network such that for any two complexes of at most that dimension with one-hot features the predictions are equal if and only if the complexes have the same colours after n rounds of cellular colour refinement without lower neighbours: the code passes on everything the refinement looks at.", "quantifier": "every n > 0, every maximal dimension; one network for all complexes with one-hot features", "why_tests_cant": "A single network has to separate all pairs of complexes that the refinement separates; a test sees finitely many pairs. A layer that loses part of its input, for example the features of shared cells, passes tests on most data.", "anchors": ["mp/models.py:SparseCIN.forward", "mp/layers.py:SparseCINCochainConv.forward", "mp/cell_mp.py:CochainMessagePassing.propagate", "data/complex.py:Complex.get_cochain_params"]}
{"id": "C67", "title": "The graph baselines do not mix batches and are bounded by the Weisfeiler-Lehman test", "statement": "GIN0, GIN, GIN0WithJK and GINWithJK return for a batch of graphs the predictions of the graphs one by one, and each is what the layers compute node by node. Graphs that colour refinement does not tell apart in as many rounds as the network has layers get the same prediction whatever the parameters; so do isomorphic graphs.", "quantifier": "every non-empty batch of graphs with at least one node, every network, every parameter value", "why_tests_cant": "All graphs and all parameter values: a test cannot show that no weights separate two graphs.", "anchors": ["mp/graph_models.py:GIN0.forward", "mp/graph_models.py:GIN.forward", "mp/graph_models.py:GIN0WithJK.forward", "mp/graph_models.py:GINWithJK.forward"]}
{"id": "C68", "title": "SparseCIN on ring complexes is strictly more powerful than GIN", "statement": "For every GIN there is a SparseCIN with as many layers that gives every batch of ring-lifted graphs the predictions the GIN gives the graphs, for any ring size. For every k >= 3 there is a SparseCIN with one layer whose prediction for a ring-lifted graph is the number of its induced cycles of length k, provided rings of that length are attached. There are two graphs that no GIN distinguishes and whose ring complexes some SparseCIN distinguishes.", "quantifier": "every GIN, every k, every batch of graphs without self-loops, every ring size, every correct simplex tree and cycle search", "why_tests_cant": "Existence of one network that works for all graphs, and impossibility for all parameters of the other: no set of runs shows either.", "anchors": ["data/utils.py:compute_ring_2complex", "mp/models.py:SparseCIN.forward", "mp/graph_models.py:GIN.forward", "mp/layers.py:SparseCINCochainConv.forward"]}
{"id": "C69", "title": "The ring models read one node per complex and do not mix batches", "statement": "RingSparseCIN on a batch of complexes returns the concatenation of the rows it computes for each complex alone, and for one complex it returns the final rows of exactly the vertices selected by the mask, in order, after the read-out layer. RingGIN has the same property for batches of graphs. When each member marks one node, prediction i belongs to member i.", "quantifier": "every list of complexes or graphs with masks, every number of layers, every choice of the learned functions", "why_tests_cant": "Holds for every batch size, mask and parameter set; offsets that are wrong only for later batch members or for marked nodes other than the first are easy to miss.", "anchors": ["mp/ring_exp_models.py:RingSparseCIN.forward", "mp/ring_exp_models.py:RingGIN.forward", "data/complex.py:CochainBatch.from_cochain_list"]}
{"id": "C70", "title": "The ring datasets are processed to discs with one marked vertex", "statement": "For at least three nodes, processing the ring-transfer dataset succeeds whenever its graphs can be generated, and processing the ring-lookup dataset succeeds for all draws (its assertion of one 2-cell never fails). Every complex is the cycle on the nodes together with one 2-cell on all of it; vertices keep the rows of the graph, edges and the 2-cell have zero rows, the mask selects exactly node 0, and the label is that of the graph. The cells are numbered the same way in all complexes of a dataset.", "quantifier": "every number of nodes from 3, every number of classes and samples, every draw, every correct simplex tree and cycle search", "why_tests_cant": "The ring search and the lifting run on cycles of every length; a test sees a few sizes and one tie-breaking order of the libraries.", "anchors": ["data/datasets/ringtransfer.py:RingTransferDataset.process", "data/datasets/ringlookup.py:RingLookupDataset.process", "data/utils.py:convert_graph_dataset_with_rings", "data/utils.py:compute_ring_2complex"]}
{"id": "C71", "title": "The label of a lookup graph is the value stored at the key of node 0", "statement": "For at least two nodes and every permutation and position drawn, the ring-lookup graph is generated; exactly one other node has the key of node 0, and the value stored there, read in a way that depends on the number of nodes only, is the label. From four nodes on, keys and values are one-hot, node 0 has a zero value, and the edges are those of the cycle. With fewer than two nodes the generation raises ValueError. The dataset has one graph per draw and its index lists cover it.", "quantifier": "every number of nodes, every permutation, every position", "why_tests_cant": "There are (n-1)! (n-1) possible draws for n nodes, and the encoder changes its layout for one and two classes.", "anchors": ["data/datasets/ring_utils.py:generate_ring_lookup_graph", "data/datasets/ring_utils.py:generate_ringlookup_graph_dataset", "data/datasets/ringlookup.py:load_ring_lookup_dataset"]}
{"id": "C72", "title": "How many layers the ring models need to see the label", "statement": "On the processed ring-transfer complexes, where node 0 is read and only node n/2 carries the label: RingSparseCIN with at most two layers returns the same row for every label when n is at least 6; with three layers, using coboundaries, there are weights (the same for all labels) for which it returns the feature row of the label, for every n from 3. RingSparseCIN without coboundaries returns the same row for every label whenever it has fewer than n/2 layers. RingGIN with fewer than n/2 convolutions returns the same row for every label, and with n/2 convolutions there are weights for which it returns the feature row of the label.", "quantifier": "every ring size, every number of classes, every batch, every choice of learned functions for the impossibility, every numbering of the cells by the libraries", "why_tests_cant": "That no weights can solve the task is a statement about all parameters; training runs only show that some were not found.", "anchors": ["mp/ring_exp_models.py:RingSparseCIN.forward", "mp/ring_exp_models.py:RingGIN.forward", "data/datasets/ring_utils.py:generate_ring_transfer_graph", "exp/run_ring_exp.py"]}
{"id": "C73", "title": "Cross-validation reports the first epoch with the best average over the folds", "statement": "If all folds have the same number of epochs, the summary of run_tu_exp prints the first epoch whose validation score averaged over the folds is largest, that average as accuracy, the deviation of the folds' scores at that epoch, and for each fold the mean, the maximum, a median and the score at that epoch; the score of a fold is the one of its model after that epoch. The accuracy never exceeds the average of the folds' own maxima. If two folds have different numbers of epochs (early stopping) the summary raises TypeError.", "quantifier": "every number of epochs, all validation curves, all training procedures", "why_tests_cant": "Which epoch is chosen depends on all ten curves at once, ties included; a test fixes the curves.", "anchors": ["exp/run_tu_exp.py:exp_main", "exp/run_exp.py:main"]}
{"id": "C74", "title": "Seeds and ring sizes are aggregated without loss or mixing", "statement": "run_mol_exp runs every seed from the first to the last once (with every fold once, for CSL) and its statistics at the best epoch are those of the scores of each run at its own best validation epoch: mean, unbiased deviation, minimum and maximum, with minimum at most mean at most maximum; with one run the deviation is NaN, and one NaN score makes all NaN. run_ring_exp prints one line per ring size 10, 12, ..., 30, which summarises exactly the runs of that size, one per seed, run with three layers for RingSparseCIN and half the ring size otherwise.", "quantifier": "every range of seeds, every number of folds, all results of the runs", "why_tests_cant": "Results are gathered in nested loops into lists and dictionaries; mixed-up runs change averages only slightly.", "anchors": ["exp/run_mol_exp.py:exp_main", "exp/run_ring_exp.py:exp_main"]}
{"id": "C75", "title": "Loaders deliver every complex of a split exactly once, as it was stored", "statement": "A loader over a split of a stored dataset yields ceil(n/b) batches of b consecutive positions (the last possibly shorter). Whatever was read from the dataset before, a network applied to the batches gives, for every position drawn, the prediction of the complex that was originally stored, passed alone: in the order of the split without shuffling, and a permutation of that with shuffling. The validation and test scores are those of the metric on these predictions and the original labels. Only the three names are accepted, only if ids are present, and not on a subset.", "quantifier": "every list of storable complexes, every split, batch size, permutation, network and previous sequence of reads", "why_tests_cant": "The composition of storage, cache, sampler, collation and network only fails for particular combinations of sizes and histories.", "anchors": ["data/data_loading.py:DataLoader", "data/data_loading.py:Collater", "data/datasets/dataset.py:InMemoryComplexDataset.get_split", "data/datasets/dataset.py:InMemoryComplexDataset.get", "exp/run_exp.py:main"]}
{"id": "C76", "title": "A TU dataset gives every graph the prediction of its own lifting", "statement": "Processing labelled graphs (clique complexes, or rings with max_dim 2) succeeds and stores one complex per graph, the lifting of this graph alone with its label. The dataset has the same folds as the graph baseline, or raises the same exception. Predictions over the loader of any split are, in the order of the ids and for every batch size, those for the lifting of each graph passed alone. Two datasets of pairwise isomorphic graphs get the same folds and the same predictions, whatever the numbering of nodes, the order of edges and the order in which the libraries list simplices and rings.", "quantifier": "every non-empty dataset of labelled graphs of equal feature width, every setting, fold, split, batch size and network", "why_tests_cant": "End-to-end composition of conversion, storage, caching, splitting, loading and inference; a test covers one dataset.", "anchors": ["data/datasets/tu.py:TUDataset", "data/datasets/tu.py:TUDataset.process", "data/datasets/tu.py:load_tu_graph_dataset"]}
{"id": "C77", "title": "Cross-validation validates every graph exactly once", "statement": "If StratifiedKFold accepts the labels and no folds are stored in files, each fold number 0 to 9 gives a division of the graphs into a training and a validation part with no test part, and every graph is in the validation part of exactly one fold. Every other fold number raises AssertionError; no fold number (the default of the command line) raises TypeError.", "quantifier": "every labelled dataset, seed and fold number", "why_tests_cant": "Fold arithmetic over all datasets and all fold numbers.", "anchors": ["data/tu_utils.py:get_fold_indices", "data/datasets/tu.py:load_tu_graph_dataset", "data/datasets/tu.py:TUDataset.__init__"]}
{"id": "C78", "title": "Datasets of strongly regular graphs, from files to predictions", "statement": "Reading a graph6 file whose graphs have edges gives graphs with every edge once in each direction; a graph without edges raises IndexError. The file of permuted graphs holds isomorphic copies. Constructing the dataset with any dimensions, any number of times, never fails, whatever files the earlier constructions left; the dataset has all graphs in each split, the predictions over its loaders are in order those for the lifting of each graph alone to the requested dimension, for every batch size. The dataset and its permuted copy get equal predictions, so the self-isomorphism test passes for every tolerance, and each pair of isomorphic graphs counts in the isomorphism failure rate. A request for a dimension that no graph reaches never finds a processed file.", "quantifier": "every non-empty list of graphs, every history of constructions, every order of simplices and rings, batch size and network", "why_tests_cant": "Histories of constructions on one folder and all graphs; the test in the repository covers one family and needs the data.", "anchors": ["data/sr_utils.py:load_sr_dataset", "data/datasets/sr.py:SRDataset", "data/datasets/sr.py:load_sr_graph_dataset", "exp/prepare_sr_tests.py:prepare", "exp/test_sr.py:_validate_self_iso_on_sr"]}
{"id": "C79", "title": "The experiment on strongly regular graphs", "statement": "The script runs every family with every seed, with the dimension passed, 2 with rings, or that of the family, reading out all dimensions up to it; it stops with AssertionError if both a dimension and a ring size are passed, and the request of a run is never refused by the dataset. The summary of a family has the mean, the smallest and the largest rate of its runs, in the right order, and any bound on the rates of all runs bounds them. What is printed as standard error is smaller than the standard error of the mean by a factor of more than the square root of the number of runs, unless all rates are equal.", "quantifier": "every argument, every range of seeds and every outcome of the runs", "why_tests_cant": "Quantifies over all outcomes; running the script takes days.", "anchors": ["exp/run_sr_exp.py"]}
{"id": "C80", "title": "Molecular datasets: what is stored and which ids belong to which part", "statement": "Building ZINC, OGB, CSL or Peptides from molecules with edge features succeeds and stores, in order, the ring complex that each graph lifts to alone, with its label. The parts of ZINC are consecutive ranges of ids; those of OGB and Peptides are the ids of the split dictionary, with the validation ids as the validation part; `simple` OGB features replace node and edge features by their first columns and nothing else; CSL graphs lose their loops and get one constant row per node and edge. CSL accepts a fold exactly if it is 0 to 4, the sizes are 3:1:1 and all ids are below 150. ZINC without edge features (the default of the constructor) cannot be processed if any molecule has a bond.", "quantifier": "every list of molecules, split dictionary, fold, ring size and order of simplices and rings", "why_tests_cant": "The datasets are downloads; the claim is for all graphs and all splits.", "anchors": ["data/datasets/zinc.py:ZincDataset", "data/datasets/ogb.py:OGBDataset", "data/datasets/csl.py:CSLDataset", "data/datasets/peptides_functional.py", "data/datasets/peptides_structural.py"]}
{"id": "C81", "title": "Predictions of the embedding networks over stored molecules", "statement": "For EmbedSparseCIN, EmbedCINpp, EmbedSparseCINNoRings and EmbedGIN with an edge encoder: whatever was read before, for every batch size and every split of a dataset that stores the complexes of molecules, the loader gives the number of batches needed and the predictions are in order those for the complex of each graph alone; shuffling permutes them like the positions; the score is the metric of these predictions and the labels of the graphs. Two datasets of pairwise isomorphic molecules get the same predictions over every split. For ZINC this holds from the downloaded molecules on, for each of its three parts.", "quantifier": "every list of molecules, split, batch size, permutation, history of reads, ring size, order of simplices and rings, and network", "why_tests_cant": "Combines storage, loading, batching and the networks for all molecules and all weights.", "anchors": ["data/datasets/zinc.py:ZincDataset", "data/data_loading.py:DataLoader", "mp/molec_models.py:EmbedSparseCIN", "mp/molec_models.py:EmbedCINpp", "mp/molec_models.py:EmbedSparseCINNoRings", "mp/molec_models.py:EmbedGIN", "exp/train_utils.py:eval"]}
{"id": "C82", "title": "Sizes of all modules fit together", "statement": "The constructors of SparseCIN and CINpp succeed iff the readout, normalisation, nonlinearity and jumping knowledge have supported names, and otherwise raise the exception of the first one that has not. For every number of layers, hidden size, maximal dimension, jump mode and readout, every network of the repository (SparseCIN, CINpp, the embedding networks and their OGB variants, EmbedSparseCINNoRings, CIN0, EdgeCIN0, Dummy, MessagePassingAgnostic, EdgeOrient, EdgeMPNN, the GINs, RingGIN, RingSparseCIN, EmbedGIN) accepts the batches with the numbers of feature columns it was constructed for: no module gets an input of the wrong size, and the output has one column per class. The cases where it does not are characterised with their exceptions: cells above max_dim with coboundary features, fixed two-cells in EdgeCIN0, Dummy with max_dim below 2, EmbedGIN with embed_dim different from hidden, no layers, unknown final readout, no dimension read out. Missing dimensions, too many features, missing levels and missing features raise the same exceptions for the sizes as for the data.", "quantifier": "every combination of constructor arguments and every batch shape", "why_tests_cant": "Sizes, numbers of layers and dimensions are unbounded and interact; a test fixes one combination.", "anchors": ["mp/models.py:CIN0", "mp/models.py:SparseCIN", "mp/models.py:CINpp", "mp/models.py:EdgeCIN0", "mp/models.py:Dummy", "mp/models.py:EdgeOrient", "mp/models.py:EdgeMPNN", "mp/models.py:MessagePassingAgnostic", "mp/molec_models.py", "mp/graph_models.py", "mp/ring_exp_models.py", "mp/layers.py:SparseCINConv.__init__", "mp/layers.py:CINppConv.__init__", "mp/nn.py:get_nonlinearity", "mp/nn.py:get_graph_norm"]}
{"id": "C83", "title": "The message passing framework delivers the right arguments", "statement": "CochainMessagePassing as written, with inspected signatures, sets of argument names, dictionaries of collected arguments and lists of sizes: for every subclass the order in which the names are visited does not matter; every method gets for a name with prefix and suffix exactly the rows of the named matrix at the senders (_j) or receivers (_i) of the columns, other names as passed, and nothing for names of other adjacencies; the number of rows of the aggregation is the number of rows of the matrix. For all classes of the library propagate computes the same as the simple gather-message-scatter model with the same exceptions in one order of the names, and the same results for sparse matrices as for the dense index of their entries. Fused functions are used iff overridden. Mixed sparse and dense adjacencies, sparse incidences between different numbers of cells, names without prefix and messages without lifted arguments do not work.", "quantifier": "every subclass with its methods and signatures, every order of the sets, every index, sizes and keyword arguments", "why_tests_cant": "Signatures, keyword arguments and iteration orders of sets are unbounded; the order of a Python set varies between runs.", "anchors": ["mp/cell_mp.py:CochainMessagePassing.__init__", "mp/cell_mp.py:__check_input_together__", "mp/cell_mp.py:__check_input_separately__", "mp/cell_mp.py:__set_size__", "mp/cell_mp.py:__lift__", "mp/cell_mp.py:__collect__", "mp/cell_mp.py:__message_and_aggregate__", "mp/cell_mp.py:propagate", "mp/cell_mp.py:update", "mp/cell_mp_inspector.py:CellularInspector"]}
{"id": "C84", "title": "The edge-flow datasets from points to predictions", "statement": "For every set of points and triangulation in which no two triangles have the same corners, load_flow_dataset returns as many samples as asked for, in each split the first half of class 0 and the rest of class 1; the features of every sample are the signed edges of a simple path from the start region to the end region along edges of triangles outside of both holes, its upper (lower) adjacency is exactly that of edges of a common triangle (vertex) with the product of both signs, and random orientations reverse the same edges in features and adjacencies. It succeeds when all regions are met and no attempt runs out. load_ocean_dataset likewise gives the net passages of every long enough path, its turn around the center as class, and a split of the paths by the mask; it needs more than 100 paths. DataLoader batches every sample of a split exactly once. A network gives for a batch exactly its predictions for the single samples, so the validation predictions depend neither on the batches nor, for networks that are blind to orientations, on the orientations the datasets were made with. The class is that of the checkpoint a path was sent to; it may miss it.", "quantifier": "every mesh, regions, draws, file of paths, orientations, network, batch size and order", "why_tests_cant": "Meshes, paths and random draws are unbounded; tests use one mesh.", "anchors": ["data/datasets/flow_utils.py:load_flow_dataset", "data/datasets/flow_utils.py:generate_flow_cochain", "data/datasets/ocean_utils.py:load_ocean_dataset", "data/datasets/flow.py:FlowDataset", "data/datasets/ocean.py:OceanDataset", "data/data_loading.py:Collater.collate", "data/complex.py:CochainBatch.from_cochain_list", "mp/models.py:EdgeOrient", "mp/models.py:EdgeMPNN"]}
{"id": "C85", "title": "What the cellular networks compute for a graph", "statement": "Lifting a list of graphs (cliques or rings), batching the complexes and running SparseCIN, CIN++ or CIN0 gives for every graph the value of a recursion on sets of its vertices only: a cell gets the value of its layer for itself, the sum of messages over the cells that share a larger cell with it (each seen together with that larger cell), the sum over cells that share a smaller cell (if lower adjacencies are included) and the sum over its own faces; then jumping knowledge, pooling over the sets of every dimension and the final layers. In particular a vertex hears each neighbour exactly once, together with their common edge; the faces of a ring are its consecutive pairs. The same holds for the embedding networks of the molecular experiments (with, without rings, and as a GIN), with the initial features the embedding of vertices and edges prescribes. No index, order of simplices, batch or offset occurs in the result.", "quantifier": "every non-empty list of graphs, every number of cells, maximal dimension or ring size, every network whose sizes fit, every permutation invariant aggregation, every order in which the libraries list simplices and rings", "why_tests_cant": "Tests compare networks on a few small complexes with fixed expected tensors; the agreement of the whole pipeline with a set-based definition over all graphs, networks and library orders is unbounded.", "anchors": ["data/utils.py:compute_clique_complex_with_gudhi", "data/utils.py:compute_ring_2complex", "data/complex.py:ComplexBatch.from_complex_list", "mp/layers.py:SparseCINCochainConv", "mp/layers.py:CINppCochainConv", "mp/layers.py:CINCochainConv", "mp/models.py:SparseCIN", "mp/models.py:CINpp", "mp/models.py:CIN0", "mp/molec_models.py:EmbedSparseCIN", "mp/molec_models.py:EmbedCINpp", "mp/molec_models.py:EmbedSparseCINNoRings", "mp/molec_models.py:EmbedGIN"]}
{"id": "C86", "title": "Which experiments start, and what with", "statement": "For every dataset that validate_args has rules for, the accepted arguments get to the first epoch iff an explicit list of further conditions holds (a ring size, a fold, supported names of nonlinearity, normalisation, readout, jumping knowledge and scheduler, no tuning split), and then the dataset, network, output size, metric, scheduler and presence of a test split are the stated ones; likewise for the TUDatasets, which have no rules. Accepted tasks can be trained (or are untrained isomorphism tests), a metric is minimised iff it is an error, networks that use lower adjacencies get datasets in which these are computed (false without rules: four TUDatasets ignore the option), SparseCIN and CIN++ predict one number per class of the dataset, and graphs and complexes of one dataset have the same classes. Transferring features on graphs, tuning splits, CLUSTER and graphs of peptides never start; other names of datasets are NotImplementedError.", "quantifier": "all arguments of the parser (strings, sizes, options), all numbers of tasks and feature widths on disk, all answers of the OGB evaluator", "why_tests_cant": "The tests parse a handful of command lines; the space of combinations of a dozen free strings and options is infinite, and whether an accepted combination fails after hours of preprocessing is only seen by running it.", "anchors": ["exp/parser.py:validate_args", "data/data_loading.py:load_dataset", "data/data_loading.py:load_graph_dataset", "exp/run_exp.py:main", "exp/train_utils.py:Evaluator.__init__"]}
{"id": "C87", "title": "How many parameters the networks have, and which of them reset_parameters reaches", "statement": "total_params, the loop over named_parameters in run_exp.py, counts every registered parameter once, also those of networks shared by several modules. For every network it equals a closed form in the arguments of the constructor: the first layer, the other layers, one dense layer per dimension and the last one, with a third perceptron and a second network on messages per dimension for CIN++, the embeddings once, and for CIN0 a number that does not depend on max_dim. reset_parameters of the graph networks, EdgeOrient, EdgeMPNN, Dummy and MessagePassingAgnostic re-initialises exactly the parameters of the network. That of SparseCIN, CIN++ and all the embedding networks raises AttributeError for all arguments, and that of CIN0, EdgeCIN0 and RingSparseCIN iff there is a layer. A level of SparseCINConv resets all its parameters, one of CINppConv leaves a perceptron, a network on messages and a scalar as they are, and the encoders of OGB are left alone by reset of PyG 1.6.3.", "quantifier": "all arguments of the constructors (sizes, numbers of layers, dimensions, options), all vocabularies, both versions of torch_geometric.nn.inits.reset", "why_tests_cant": "The tests build a few networks and never count parameters or call reset_parameters; a closed form for all sizes and an exception for all arguments cannot be sampled.", "anchors": ["exp/run_exp.py:331-340", "mp/models.py:SparseCIN.reset_parameters", "mp/models.py:CIN0.reset_parameters", "mp/layers.py:CINppCochainConv", "mp/layers.py:SparseCINCochainConv.reset_parameters", "mp/molec_models.py:EmbedSparseCIN", "mp/graph_models.py:GIN"]}
{"id": "C88", "title": "Which parts of a network cannot influence its predictions", "statement": "The network on lower messages of every level of CIN++ is never used: with any other in its place, CIN++ and the embedding variant do the same on every input, including the exception they raise. Dense layers of dimensions that are not read out are never used. On every batch of clique or ring complexes, the network on upper messages of the top dimension does not matter (dimension 2 for rings, 1 for EmbedSparseCINNoRings, the smaller of max_dim and the dimension of the lifting in general); and without jumping knowledge, a level of layer i of n matters only if its dimension is within n - 1 - i of a dimension that is read out. Two networks that differ only in such parts give the same predictions.", "quantifier": "all networks (all maps in the levels, numbers of layers, readouts), all replacements of the parts named, all inputs for the first two, all batches of graphs and all edge and node features for the others", "why_tests_cant": "That parameters never matter is a statement about all inputs and all values of the parameters; the tests never change a parameter.", "anchors": ["mp/layers.py:CINppCochainConv", "mp/layers.py:SparseCINCochainConv", "mp/cell_mp.py:propagate", "mp/models.py:SparseCIN.forward", "mp/molec_models.py:EmbedSparseCIN.forward", "mp/molec_models.py:EmbedSparseCINNoRings", "README.md:180"]}
{"id": "C89", "title": "Processed files: which data a dataset gives after any history of constructions", "statement": "Start from an empty disk and construct datasets one after the other, some of which fail or are killed after any number of files. A construction gives the data of the first earlier construction with the same files that wrote them completely; if there is none, its own data. An interrupted construction never leaves files that a later one accepts. Hence every uninterrupted construction of a TU dataset with one setting of degree_as_tag, of ZINC and of the OGB and peptides datasets with one setting of include_down_adj, of CSL, the ocean dataset and the dummy molecules, and of an SR dataset (which moves its file to the folder of the dimension found) gives the data for its own options. With different settings of these options the data of the first setting are given. The flow dataset keeps the samples of the first construction and takes the ids from the arguments, so validation ids may point to training samples or to no sample; the ring-transfer dataset keeps the numbers of samples of the first construction.", "quantifier": "all histories of constructions of any length, all options, all places to be killed, all conversions and random draws", "why_tests_cant": "The result depends on what earlier runs, possibly interrupted, left on disk; the tests construct each dataset once in a fresh folder.", "anchors": ["data/datasets/tu.py:84-121", "data/datasets/sr.py:76-110", "data/datasets/zinc.py:36-110", "data/datasets/ogb.py:34-88", "data/datasets/flow.py:25-63", "data/datasets/ringtransfer.py:24-86", "data/data_loading.py:113-191"]}
{"id": "C90", "title": "What rings and cliques add to the Weisfeiler-Lehman test", "statement": "On clique complexes of any dimension SparseCIN can do what GIN does: for every GIN with sum or mean readout there is a SparseCIN with as many layers that gives every graph the same predictions. Some SparseCIN with one layer counts the cliques of a given dimension. Conversely, if no graph has a triangle (or the complexes are cut off at the edges), SparseCIN, CIN++ and CIN give the same predictions to graphs that colour refinement with one more round than layers does not tell apart; the same holds for ring complexes whose graphs have no rings up to the size limit, where colour refinement also sees the features of edges. EmbedSparseCINNoRings and EmbedGIN never see more than this on any ring complex. There are graphs with equal predictions of every GIN that cliques tell apart, and graphs with equal predictions on clique complexes that rings tell apart.", "quantifier": "all networks of the six classes with any number of layers and any weights, all batches of graphs, all complexes from the two conversions, all contracts for gudhi and graph-tool", "why_tests_cant": "The claims quantify over all weights and all graphs; a test evaluates one random network on a few graphs and cannot show that no network tells two graphs apart.", "anchors": ["mp/models.py:112-284", "mp/molec_models.py:386-620", "mp/graph_models.py:33-86", "data/utils.py:224-272", "data/utils.py:400-498"]}
{"id": "C91", "title": "Strongly regular graphs: cliques of three nodes and rings of three see nothing, cliques of four do", "statement": "If in two graphs of the same size, with one feature for all nodes as load_sr_graph_dataset gives them, any d+1 nodes joined to each other have the same number of common neighbours for every d below the dimension of the complexes, then SparseCIN, CIN++ and CIN give their clique complexes the same predictions, with any number of layers. Strongly regular graphs with the same parameters meet this up to dimension 2 (or with batches cut off there). Ring complexes with rings of at most three nodes give the predictions of clique complexes of dimension 2. The rook's graph and the Shrikhande graph are strongly regular with the same parameters: no such network tells them apart with dimension 2 or rings of three, some SparseCIN with one layer tells them apart with cliques of dimension 3 or more, and some SparseCIN with rings of four or more nodes does.", "quantifier": "all networks of the three classes with any number of layers and any weights, all pairs of such graphs, all contracts for gudhi and graph-tool", "why_tests_cant": "The SR experiment tries a few random networks and counts the pairs it fails to separate; that no network separates them at all is a statement about every choice of weights.", "anchors": ["data/datasets/sr.py:21-42", "exp/evaluate_sr_cwn_emb_mag.py:20-110", "data/utils.py:224-272", "data/utils.py:400-498", "mp/models.py:112-284"]}
{"id": "C92", "title": "The baselines on complexes: MessagePassingAgnostic sees features only, Dummy adds up", "statement": "MessagePassingAgnostic gives every complex of a batch the prediction of a formula on the features of its cells, dimension by dimension; batches whose complexes have the same features in each dimension, in any order, get the same predictions whatever their adjacencies and boundaries. On clique and ring complexes of graphs with one feature for all nodes only the numbers of cliques of each dimension, or of edges and of rings of each length, matter. For every such network there is a SparseCIN of one layer with the same predictions on all batches, and there are two graphs (a path and a star) that no MessagePassingAgnostic tells apart and some SparseCIN of one layer does. Dummy computes, on clique and ring complexes, sums over the neighbours of the cells of dimensions up to 2 with any number of layers, and refuses every batch with cells of a dimension up to 2 that is above its own max_dim.", "quantifier": "all networks of the two classes with any weights, dimension and number of layers, all non-empty batches of complexes with features, all batches of graphs, all contracts for gudhi and graph-tool", "why_tests_cant": "The claims compare predictions for all weights and all graphs; a test runs one network on a few complexes and cannot show that adjacencies never matter, or that no network of the class separates two graphs.", "anchors": ["mp/models.py:422-473", "mp/models.py:618-660", "mp/layers.py:13-51", "data/complex.py:520-600"]}
{"id": "C93", "title": "EdgeCIN0 on batches and on graphs: predictions, blind spots, and the rings it still sees", "statement": "EdgeCIN0 gives every complex of a batch the prediction of a formula for that complex alone: vertices and edges pass messages as in CIN, the 2-cells go through their own networks after every layer but the last if their features are included and updated, and only vertices and edges are pooled. The predictions do not depend on the numbering of the cells. Complexes with the same features and the same upper and lower adjacencies of vertices and edges get the same prediction; the features of the 2-cells matter only with include_top_features, and adjacencies of the 2-cells, boundaries, and everything above dimension 2 never do. On clique and ring complexes the predictions are those of the formula on the vertex sets of the cells. Even without the features of the 2-cells one layer tells a hexagon from two triangles on their ring complexes.", "quantifier": "all networks with any weights, number of layers, readout and jumping knowledge, all non-empty batches of complexes with features, all renumberings, all batches of graphs, all contracts for gudhi and graph-tool", "why_tests_cant": "Tests run one initialisation on a few complexes; they cannot show that the features of the 2-cells never reach a prediction, or that each row of a batch only depends on its own complex, for all weights and depths.", "anchors": ["mp/models.py:286-420", "mp/layers.py:127-160", "data/complex.py:520-640"]}
{"id": "C94", "title": "The switch include_down_adj: what it changes, which networks notice, and the CLUSTER splits that disagree on it", "statement": "Whenever a graph is lifted with include_down_adj, to a clique or a ring complex, it is also lifted without it, to the same complex without lower adjacencies; a converted dataset has the same dimension and numbers of features. SparseCIN, CIN++ and the networks that embed the features first (embed_sparse_cin, embed_cin++ and their OGB variants) predict the same with and without the switch, although the experiments insist on it for the CIN++ variants; CIN does not. ClusterDataset lifts the training and validation graphs without and the test graphs with lower adjacencies: a graph in both gets two complexes, the first being the second without its lower adjacencies.", "quantifier": "all graphs, features, labels, ring sizes and expansion dimensions for which the lift succeeds, all datasets, all networks with any weights, all non-empty batches, all contracts for gudhi and graph-tool", "why_tests_cant": "Tests compare the two settings on a few graphs and one initialisation; that the switch never changes anything else, and never reaches a prediction of CIN++ for any weights, needs all of them. The CLUSTER dataset needs a download and is not tested.", "anchors": ["data/utils.py:103-138", "data/utils.py:177-272", "data/utils.py:400-498", "data/datasets/cluster.py:14-77", "mp/layers.py:190-330", "exp/parser.py:140-160"]}
{"id": "C95", "title": "Networks in training mode: batch normalisation lets complexes interact only through statistics, and the skipped batches are the ones that could raise", "statement": "In training mode with batch normalisation, SparseCIN, CIN++ and their embedding variants raise ValueError on a batch iff, in some dimension in which a layer uses batch statistics, its complexes together have exactly one cell. Otherwise each complex gets what the network would compute for it alone in evaluation mode if its running statistics were those that the cells of all complexes of the batch have in each layer. So predictions in training mode do not depend on the order of the complexes or the numbering of the cells, but they do depend on the rest of the batch. A batch that the training loop does not skip (at least two cells in each of its dimensions) never raises. With the normalisations id and ln training and evaluation mode agree on every batch.", "quantifier": "all networks with any weights, normalisations, activations, numbers of layers and readouts, all non-empty batches of well-formed complexes with vertices, all numberings and orders", "why_tests_cant": "Tests run the networks in evaluation mode to compare batched with single predictions; in training mode they cannot compare, because the outputs differ. What the outputs are then, for all weights and batches, needs a specification of the interaction.", "anchors": ["mp/layers.py:184-199", "mp/layers.py:243-260", "mp/layers.py:276-345", "mp/layers.py:347-426", "mp/nn.py:39-47", "mp/models.py:194-254", "mp/molec_models.py:90-161", "exp/train_utils.py:33-58"]}
{"id": "C96", "title": "The loss of a batch is the mean error of the labels that are present; the mean loss of a split is not", "statement": "For the tasks regression, mse_regression and bin_classification the loss of a batch is the mean, over the labels that are present, of the error between the label and the number that the model gives for the same complex and the same target: the labels of the complexes of a batch, concatenated and viewed in the shape of the predictions, line up with them. Missing labels, the order of the complexes and the order of the targets do not matter; the loss is NaN exactly when no label of the batch is present, and (for the two regressions) zero exactly when every label present is met. A model with a wrong number of outputs raises RuntimeError. For classification the loss is the mean over the complexes, and a class without an output raises IndexError. The mean loss of a split equals the loss of all its data at once when all batches have equally many labels, but not in general, and one batch without labels makes it NaN. The metric mae raises ValueError as soon as one label is missing, and is otherwise the loss of all the data at once.", "quantifier": "all criteria that compare entries, all numbers of complexes and targets, all labels with any set of them missing, all predictions, all batches and splits", "why_tests_cant": "Whether targets line up with predictions for every pattern of missing labels and every batch size is a statement about all shapes; a wrong view or mask gives a plausible number.", "anchors": ["exp/train_utils.py:9-14", "exp/train_utils.py:58-71", "exp/train_utils.py:104-144", "exp/train_utils.py:198-204"]}
{"id": "C97", "title": "The standardised targets of the structural peptides", "statement": "Each column of targets with two different values becomes a column with mean zero and sample variance one, with values in the same rows and in the same order; the original values can be computed back, and an error in the new units is the error in the old units divided by the deviation. A column without two different values becomes a column of missing targets. A change of units of a target changes nothing (a negative factor: the sign). Doing it twice is doing it once. The label of row i consists of the standardised values of row i, computed with all rows of the file; so labels of training data depend on the test data.", "quantifier": "all tables of real numbers with any set of entries missing, all numbers of rows and columns, all changes of units", "why_tests_cant": "Statements about all tables; the constant column and the dependence on other splits do not show up as an error on the one file that is downloaded.", "anchors": ["data/datasets/peptides_structural.py:152-180", "data/datasets/peptides_structural.py:226-257"]}
{"id": "C98", "title": "A whole experiment does not depend on the numbering of nodes and cells, nor on the order inside batches", "statement": "With SparseCIN or CIN++ and any optimiser, scheduler, loss and score: if every complex of the three splits is replaced by a renumbered one, then every loss, the parameters and running statistics after each step, every score and the final report are the same, or the same exception is raised. Starting from graphs: datasets of pairwise isomorphic graphs with equal labels, lifted to ring complexes, give the same report, whatever order the libraries report cells in. For SparseCIN the order of the complexes inside each batch does not matter either, provided every complex has one label and the loss and the score do not depend on order. A pass in training mode moves the running statistics of each normalisation by the mean and the variance over all cells, of all complexes of the batch, that the layer meets; a layer that meets none keeps its own.", "quantifier": "all datasets, all renumberings, all numbers of epochs, all optimisers (any function of the old state, the statistics and the loss), all losses and scores, all networks with any layers and normalisations, all loaders' orders", "why_tests_cant": "A test trains on one numbering. A dependence on the numbering anywhere in lifting, batching, message passing, normalisation or evaluation would show up as noise between runs, not as a failure.", "anchors": ["exp/train_utils.py:16-74", "exp/train_utils.py:92-144", "exp/run_exp.py:360-478", "mp/models.py:199-244", "mp/layers.py:184-199", "mp/layers.py:243-260", "data/data_loading.py:26-36"]}
{"id": "C99", "title": "The plot of the experiments on strongly regular graphs shows what the experiment wrote", "statement": "Reading result.txt back gives, under the k-th name of the plot, the mean and the error that the script wrote for its k-th family, whatever the numbers, the commit and the arguments are. The names of script and plot have the same digits in the same order, sorting the names keeps that order, and the bar over the k-th label ends at the mean over the runs of the k-th family. A file with fewer than nine families raises AssertionError, one with more IndexError. The names in the file are not read: nine families in another order would be plotted under the wrong labels.", "quantifier": "all numbers and ways to print them as one word without a colon that read back, all commits and argument texts without line breaks, all numbers of families, all experiments", "why_tests_cant": "The parser goes by line positions and prefixes; that no commit text, argument text or number can be mistaken for a result line is a statement about all files.", "anchors": ["exp/run_sr_exp.py:17-38", "exp/run_sr_exp.py:88-118", "exp/plot_sr_cwn_results.py:13-48", "exp/plot_sr_cwn_results.py:73-84"]}
{"id": "C100", "title": "The dimensions of the experiments on strongly regular graphs cut off no clique", "statement": "In every strongly regular graph, the number of nodes of a clique obeys a bound that follows from counting the edges and pairs of edges that leave it. For the parameters of each of the nine families, the largest number of nodes that counting allows is the dimension in __max_dim__ plus one. So no clique of any graph of a family is cut off, and SparseCIN, CIN++ and CIN predict the same for lists of such graphs as with any larger dimension for lifting and batching. For six of the families a smaller dimension would lose cells of some graph with these parameters.", "quantifier": "all strongly regular graphs with the parameters of a family (isomorphic or not, any numbering), all larger dimensions, all networks", "why_tests_cant": "The bound is about all graphs with given parameters, also those that are not in the files; a dimension that is too small silently drops cells and only shows up as a worse failure rate.", "anchors": ["exp/run_sr_exp.py:17-38", "exp/run_sr_exp.py:71-84", "exp/plot_sr_cwn_results.py:16-25", "data/utils.py:224-272"]}
{"id": "C101", "title": "Tuning runs every combination of a grid once, with its values, and what can be prepared and begun", "statement": "exp/run_tu_tuning.py numbers the combinations of the lists of a configuration in mixed radix; eight processes, one for each remainder modulo 8, take every number exactly once and in increasing order. If the command line of exp/parser.py understands all values and no two entries stand for the same option (an entry may be the unique beginning of one), the experiment with number h gets exactly the values of combination h, the name h, the dataset and the result folder, and nothing else; its ten folds get the same and the number of the fold; different numbers have different result files; and if all experiments end without exception, all are begun. No experiment is begun with a value that is not understood: with an entry for a flag, such as include_down_adj, nothing is begun at all. exp/prepare_tu_tuning.py builds exactly the datasets of the choices of dimension, ring size and features for the IMDB and REDDIT datasets, but raises KeyError for PROTEINS, NCI1, NCI109, PTC and MUTAG, and for all configurations without max_ring_size.", "quantifier": "all configurations (any number of lists and values), all indices of processes, all root folders and codes, all number syntaxes that read what is written", "why_tests_cant": "Which combination a number means depends on all sizes at once, and the command line resolves beginnings of names over all options; a grid takes days, and a combination that is left out or run twice shows only in a table of results.", "anchors": ["exp/run_tu_tuning.py:12-53", "exp/prepare_tu_tuning.py:5-23", "exp/run_tu_exp.py:16-75", "exp/parser.py:8-118", "data/data_loading.py:113-153", "exp/tuning_configurations/template.yml"]}
{"id": "C102", "title": "The project's own checks of lifted datasets succeed on every graph, and what they overlook", "statement": "data/helper_test.py compares lifted complexes with an independent search (networkx.simple_cycles, chordless, at most k long), with the graphs they come from, and with stored complexes. The ring check succeeds on the ring complex of every graph with an edge, for every ring size; whatever complex passes it has the vertices of an induced cycle of bounded length on each 2-cell, and every such cycle on exactly one. The check of the converted splits succeeds on every molecule with a bond (and raises KeyError on one without); whatever passes it has the label, the node features, the same joined nodes, and for every edge a 1-cell with its ends and features. A valid complex compares equal to itself exactly when it has a label, features in all dimensions, boundary indices exactly in the positive ones and nothing below and above; complexes that compare equal give a network the same inputs; complexes lifted with cliques or rings, stored and read again compare equal to what was stored. The ring check accepts a square with only two of its edges in the boundary, and the comparison accepts complexes with different labels of cells.", "quantifier": "all graphs, features, ring sizes and flags; all complexes and pairs of complexes; all cycle searches, subgraph searches and simplex trees that meet their contracts; all stored lists", "why_tests_cant": "These are the tests: they look at the molecules of one dataset. That they cannot fail on a correct lifting, and which wrong liftings they cannot notice, is a statement about all complexes.", "anchors": ["data/helper_test.py:9-66", "data/helper_test.py:69-116", "data/helper_test.py:119-197", "data/datasets/test_zinc.py:14-57", "data/test_dataset.py:11-27"]}
{"id": "C103", "title": "Messages between lower neighbours show nothing that more layers do not see without them", "statement": "CIN layers send messages between lower neighbours (cells that share a face); SparseCIN sends none, and CIN++ is not given any. On lifted graphs nothing is lost by that: clique complexes that cellular colour refinement without lower neighbours does not tell apart in 2n rounds are not told apart in n rounds with them, and complexes with rings likewise with 2n+1 rounds. So batches of such complexes get the same predictions from every CIN of at most n layers, and there is one SparseCIN of 2n+1 layers such that whatever lifted graphs (with one-hot features) it gives the same prediction get the same prediction from every CIN of at most n layers. Layer for layer lower neighbours do help: two trees get the same prediction from every one-layer SparseCIN and CIN++ and different ones from a one-layer CIN.", "quantifier": "all graphs with node features (and edge features for rings), all permutation-invariant aggregations, clique dimensions and ring sizes, all numbers of layers, all parameters of the networks, all simplex trees and subgraph searches that meet their contracts", "why_tests_cant": "It compares what whole families of networks can tell apart on all graphs, for every depth and all parameters.", "anchors": ["mp/layers.py:62-104", "mp/layers.py:154-214", "mp/layers.py:216-261", "mp/models.py:12-110", "mp/models.py:112-257", "data/utils.py:68-138", "data/utils.py:224-272", "data/utils.py:370-498"]}
{"id": "C104", "title": "The embeddings of strongly regular graphs and their magnitudes", "statement": "The script that measures the embeddings of strongly regular graphs (and the self-isomorphism test) takes the features of nodes, edges and two-cells of every batch of eight graphs. If each part of eight consecutive graphs has a graph with an induced cycle of at most six nodes, the embeddings are, in order, those of the complexes lifted from the graphs one by one, whatever was requested of the dataset before; if some part has none, the result is an AttributeError. Strongly regular graphs whose nodes have two or more neighbours always have an induced cycle of at most five nodes, so the families never fail. The script then reports for every family and seed the greatest absolute value of an entry; the ring size on the command line changes the name of the file and its first line and nothing else. The self-isomorphism test passes exactly if every entry of the reference embeddings is below 5e8 in absolute value; the comparison with the permuted graphs never fails. All of this holds for the networks on complexes and for the baseline.", "quantifier": "all lists of plain graphs (all strongly regular graphs of degree at least 2 for the families), all histories of requests, all networks and baselines with any parameters, all permutations drawn, all simplex trees and subgraph searches that meet their contracts, all ring sizes on the command line", "why_tests_cant": "The test itself is the object: whether it can fail, and for which inputs, is a statement over all graphs, networks, permutations and states of the processed files; the existence of a short induced cycle is a theorem on all strongly regular graphs.", "anchors": ["exp/evaluate_sr_cwn_emb_mag.py:24-109", "exp/test_sr.py:10-126", "exp/prepare_sr_tests.py:21-34", "data/complex.py:509-511", "data/datasets/sr.py:46-110"]}
{"id": "C105", "title": "The hand-made complexes, the dummy datasets and the tests run on them", "statement": "The ten complexes written out by hand in data/dummy_complexes.py are accepted by the constructors and are cell complexes: counts of neighbouring dimensions agree, every dimension has cells, two cells are upper (lower) neighbours via a cell exactly if that is a common coface (face), every cell that is no vertex has faces, every edge has two ends, a face of a face of a cell is a face of exactly two of its faces, cell i has the feature i+1, and the label is the number of vertices. The two lists of testing complexes have 23 members of all dimensions up to 3 and 19 of all dimensions up to 2. The dummy datasets contain exactly these, with the labels 0 and 1 in turn, all of them in each split, and without features of the 2-cells exactly if that option is set, whatever was constructed before. The tests of batching pass for all networks, all batch sizes and all dimensions of the batches, on all complexes with features; the molecular ones with and without features of the 2-cells; the permutation test passes for all networks, all cell complexes and all permutations.", "quantifier": "all feature types and conversions of the numbers written in the file, all histories of constructions, all networks with any parameters, all batch sizes and dimensions, all lists of complexes, all permutation matrices, all simplex trees and subgraph searches that meet their contracts", "why_tests_cant": "The tests run three or four networks with random parameters at a few batch sizes and with five random permutations per graph; whether they can ever fail is a statement about all parameters, sizes and permutations.", "anchors": ["data/dummy_complexes.py:28-576", "data/datasets/dummy.py:5-91", "mp/test_models.py:12-74", "mp/test_models.py:138-182", "mp/test_molec_models.py:11-80", "mp/test_permutation.py:9-36"]}
{"id": "C106", "title": "The intermediate results of the networks and the tests that compare them", "statement": "With include_partial=True SparseCIN, CIN++ and their embedding variants return on all data the same prediction, or raise the same exception, as without, and store the prediction under `out`. On a batch of complexes with features and vertices SparseCIN and CIN++ store under layer{i}_{k} the features of the k-cells of the members after layer i, one member after the other, a key being there exactly if some member has cells of that dimension, under pool_{i} the pooled features of each member, and nothing else; so all of it is put together from the results of the members alone. The tests that compare every intermediate result with and without batches pass for all parameters of SparseCIN and CIN++, all lists of complexes with features and vertices and all sizes and dimensions of the batches. The tests that take the features of edges and 2-cells out of each batch before an embedding network sees it pass on all lists of cell complexes with features, for all dimensions of the batches up to 2 and all dimensions of the network from there, for EmbedSparseCIN, its CIN++ variant, the network without rings and the GIN baseline; in particular on the hand-made complexes, which contain a pyramid of dimension 3. The tests pass if and only if the same results are there with and without batches and are equal; a result that is there in one of the two only raises KeyError.", "quantifier": "all networks with any parameters that fit their layers, all lists of complexes, all batch sizes, all dimensions of batches (up to 2 for the embedding networks), all feature spaces", "why_tests_cant": "The tests compare one random network per batch size and pair of dimensions on 23 fixed complexes, up to a tolerance; that no parameters, complexes or batch sizes give another result is not something they can show.", "anchors": ["mp/models.py:194-254", "mp/molec_models.py:90-161", "mp/molec_models.py:281-350", "mp/test_models.py:138-185", "mp/test_molec_models.py:11-164", "mp/test_molec_models.py:225-284"]}
{"id": "C107", "title": "The faces of a complex can be read off its second incidence matrix", "statement": "faces_from_B2, which reads for every column of B2 the corners of the edges with a non-zero entry, gives back on the incidence matrices of the ocean drifters exactly the faces they were made from, corner by corner and in the same order, for all edge lists without loops and all lists of faces for which the matrices can be made; so two lists of faces with the same matrix are equal. On the boundary matrix of the synthetic flows it gives for every triangle its three corners in increasing order, in the order of the triangulation.", "quantifier": "all edge lists without loops, all lists of faces that fit, all triangulations for which the matrices are made", "why_tests_cant": "No test calls faces_from_B2; its only use, to draw figures, is commented out. That reading a matrix back is the inverse of making it needs all complexes.", "anchors": ["data/datasets/ocean_utils.py:41-54", "data/datasets/ocean_utils.py:57-91"]}
{"id": "C108", "title": "When the test of degrees as tags passes, and what the graphs of a fold are", "statement": "On graphs that were loaded from a file with degrees as tags, validate_degree_as_tag passes exactly if in every graph but the last of the file the last node has a neighbour, and raises an AssertionError otherwise; that the last graph of the file can have fewer rows of features than nodes is not noticed. separate_data divides the graphs in two for each of the ten folds, every graph is in the second part for one fold only, the parts are the graphs at the ids of get_fold_indices, and folds outside 0 to 9 are an AssertionError. separate_data_given_split gives exactly the graphs that the two files of the fold list, in their order, and accepts fold -1, for which it reads the files with number 0.", "quantifier": "all files of TU datasets that can be loaded, all orders of Python's sets, all stratified divisions in ten folds, all lists of graphs, all seeds, all folds", "why_tests_cant": "The test needs downloaded datasets, of which it says nothing beyond; it computes the degrees in the same way as the code, without the number of nodes, and so cannot see rows missing at the end. separate_data is not tested.", "anchors": ["data/test_tu_utils.py:30-49", "data/tu_utils.py:157-175", "data/tu_utils.py:197-226"]}
{"id": "C109", "title": "CIN0 in training mode: its messages are normalised too, and the batches that are not skipped do not raise on lifted graphs", "statement": "In training mode CIN0 raises ValueError on a batch iff, in some dimension of some layer, a batch normalisation gets exactly one row: the complexes of the batch together have exactly one cell, or exactly one upper adjacency, or exactly one lower adjacency in that dimension. Otherwise each complex gets what the network would compute for it alone in evaluation mode if its running statistics were those that the messages and the cells of all complexes of the batch have in each layer. The predictions do not depend on the order of the complexes or the numbering of the cells; they do depend on the rest of the batch. The training loop skips batches by their numbers of cells, not of messages; still, for complexes whose adjacencies are the ones their incidences give, in particular for all lifted graphs (cliques or rings, lower adjacencies included), a batch that is not skipped never raises, because every adjacency is there in both directions. For a complex with an adjacency in one direction only it can raise.", "quantifier": "all CIN0 networks with any weights, activations, numbers of layers, readouts and jumping knowledge, all non-empty batches of well-formed complexes with vertices, all numberings and orders, all graphs", "why_tests_cant": "Tests compare batched with single predictions in evaluation mode. Which rows a normalisation of messages gets depends on the adjacencies of the whole batch, and that it never gets exactly one needs all graphs.", "anchors": ["mp/models.py:20-103", "mp/layers.py:62-124", "exp/train_utils.py:34-60"]}
{"id": "C110", "title": "The graph baselines in training mode: statistics of the nodes of the batch, and no more power than colour refinement", "statement": "In training mode GIN0, GIN, GIN0WithJK, GINWithJK and RingGIN raise ValueError on a batch iff they use batch normalisation and the graphs of the batch together have exactly one node; so they never raise on a batch that the training loop does not skip. Otherwise each graph gets what the network would compute for it alone in evaluation mode if its running statistics were those that the nodes of all graphs of the batch have in each layer (for RingGIN: the predictions of its marked nodes). Predictions depend on the rest of the batch, but only through its colours: if the graphs of two batches, paired up in any order, cannot be told apart by the Weisfeiler-Lehman test in as many rounds as there are layers, both batches raise or paired graphs get equal predictions; two such graphs inside one batch get equal predictions. In particular the order of the graphs and the numbering of their nodes do not matter. Without batch normalisation the models compute the same in training and in evaluation mode.", "quantifier": "all networks with any weights, activations, numbers of layers, readouts and jumping knowledge, all non-empty batches of graphs with nodes, all pairings", "why_tests_cant": "The graph models have no tests; the statistics of a batch are a function of all its nodes, and the bound on the power is about all pairs of batches and all parameters.", "anchors": ["mp/graph_models.py:33-263", "mp/ring_exp_models.py:76-127", "exp/train_utils.py:34-60"]}
{"id": "C111", "title": "Average precision and ROC-AUC: what the evaluators measure, and that only the order of the scores counts", "statement": "The average precision of a column is the mean, over its positives, of the precision among the entries scoring at least as high; its ROC-AUC is the probability that a random positive scores higher than a random negative, equal scores counting half. Both lie between 0 and 1 and are 1 iff every positive scores higher than every negative; for constant scores they are the share of positives and 1/2; reversing the order of the scores turns the area a into 1 - a. Evaluator._ap gives the mean over all columns and raises ValueError for a missing label or a wrong shape; Evaluator._ogb gives the mean over the columns in which both labels occur, of the entries that have a label, and raises RuntimeError if there is none. Neither depends on the order of the rows, nor on strictly increasing functions applied to the columns, so that evaluating logits or sigmoids of logits gives the same. A further column without positives shrinks _ap by the factor k/(k+1) but does not change OGB's metrics.", "quantifier": "all arrays of scores in any linear order and of labels, with ties and missing labels, all numbers of rows and columns, all strictly monotone functions", "why_tests_cant": "No test covers the evaluators; equality of the curves computed from sorted scores with the probabilities, for every array with ties, is not settled by samples.", "anchors": ["exp/train_utils.py:111-211"]}
{"id": "C112", "title": "Dropout: evaluation mode is deterministic, training mode is right on average, and complexes do not share random numbers", "statement": "In evaluation mode dropout does nothing in any model, at any position and for any random numbers. In training mode, with independent masks, the expected value of every prediction of SparseCIN, CIN++, CIN0, EdgeCIN0, MessagePassingAgnostic and the graph baselines is the prediction without dropout, if dropout comes in front of the final readout or of the last linear map (for SparseCIN with batch normalisation: what the network computes in evaluation mode with the statistics of the batch); in front of the first linear maps it is not. The models raise what they raise without dropout; a rate outside [0,1] makes them raise in both modes. Prediction r depends on row r of the masks only. In the OGB networks every layer has a mask of its own, applied to its outputs before the next layer. With the same masks, batches of renumbered complexes, and of graphs not told apart by the Weisfeiler-Lehman test, get the same predictions.", "quantifier": "all networks with any layers, all batches, all masks, all rates in [0,1), all finite numbers of columns over any ordered field", "why_tests_cant": "Expected values range over all masks, exponentially many in the size of the tensors; the tests run in evaluation mode or compare shapes.", "anchors": ["mp/models.py:112-258", "mp/models.py:404-424", "mp/molec_models.py:98-165", "mp/graph_models.py:66-86"]}
{"id": "C113", "title": "The tests of the oriented networks pass for all complexes, orientations and weights, except the one for relu", "statement": "For any pair of boundary matrices whose columns meet in at most one place, any features and any set of reversed edges: the test that the oriented convolution is equivariant passes; the tests that EdgeOrient with tanh or id is equivariant before and invariant after the readout pass for all weights; the test that EdgeMPNN is invariant passes for all weights and activations. The test that EdgeOrient with relu is not equivariant fails whenever the last layer is dead and on every network with odd layers, so it passes for some weights only. The test that predictions do not depend on batches passes for every division of the dataset into batches that are not empty. include_partial only adds the features of the edges to the prediction.", "quantifier": "all matrices that fit, all features, all signs, all weights, all networks with at least one layer, all divisions into batches", "why_tests_cant": "The tests use one complex, one set of reversed edges and one random draw of the weights; whether the relu test passes depends on the draw.", "anchors": ["mp/test_orientation.py:12-147", "mp/models.py:522-547", "mp/models.py:590-616", "data/datasets/flow_utils.py:233-252"]}
{"id": "C114", "title": "Dropout in the networks for edge flows and in EmbedGIN", "statement": "In evaluation mode dropout does nothing in EdgeOrient, EdgeMPNN and EmbedGIN, at any position and for any random numbers. In training mode the expected prediction of EdgeOrient and EdgeMPNN for an item of a batch is the prediction for the item alone without dropout, and reversing edges, differently in every item, changes no prediction made with the same random numbers. In EmbedGIN, given the dropout of the embedded vertices, dropout in front of the last linear map does not change the expected prediction; 'final_readout' and 'lin2' are the same position there, and at an unknown position there is no dropout behind the pooling. Prediction r depends on row r of the masks behind the pooling only. A rate outside [0,1] makes all three raise in both modes.", "quantifier": "all networks, all batches, all masks, all rates, all orientations, all finite numbers of columns over any ordered field", "why_tests_cant": "The tests run in evaluation mode; expected values range over all masks.", "anchors": ["mp/models.py:522-547", "mp/models.py:590-616", "mp/molec_models.py:559-603"]}
{"id": "C115", "title": "The tests that batching returns the same features and indices", "statement": "The tests that compare, dimension by dimension, what is collected from batches with what is collected from the complexes alone pass on every list of complexes with features, for every batch size above 0 and every dimension at which batches are cut: the features, the features of shared faces, the features of faces and of the cells they are faces of along the boundary index, and the features of shared cofaces if no complex stores an upper index without pairs. What they compare are all rows in the order of the complexes, up to dimension 2 only. The hand-made complexes and all clique complexes of graphs meet the conditions, and an upper index without pairs can make the last test fail.", "quantifier": "all lists of complexes, all feature rows, all batch sizes and maximal dimensions", "why_tests_cant": "The tests run on one list of 23 complexes and on 111 protein graphs, with 27 combinations of parameters.", "anchors": ["data/test_batching.py:588-1019", "data/complex.py:548-626"]}
{"id": "C116", "title": "Messages come along the boundaries", "statement": "In a complex whose neighbours are the cells with a common face or coface, what `propagate` returns with the message functions of the class itself is determined by the boundaries: from above a cell gets, for each coface, the rows of the other faces of it; from below, for each face, the rows of the other cells with that face; and the rows of its faces. So every neighbour counts as often as there are common cofaces or faces, a cell without cofaces or faces gets zero, what a cell gets from above plus its own row per coface is what its cofaces get from their faces, and the sums over a dimension agree accordingly. On vertices the messages from above are those of plain message passing on the graph. The dummy layer adds the rows of the shared cells. The hand-made complexes, clique complexes and ring complexes are such complexes.", "quantifier": "all complexes with features whose adjacencies come from their faces, all feature rows, all dimensions and cells, all flags of the dummy layer", "why_tests_cant": "The tests compare with numbers worked out by hand on the house, the bridged complex, the molecule and three complexes with isolated vertices.", "anchors": ["mp/cell_mp.py:357-424", "mp/cell_mp.py:511-524", "mp/test_cell_mp.py:14-265", "mp/layers.py:14-40", "mp/test_layers.py:11-70"]}
{"id": "C117", "title": "The tests of the edge-flow data pass", "statement": "`test_create_hole` passes for all points, triangles and regions for which some triangle stays and all corners are points; otherwise `create_hole` raises an IndexError. `test_flow_util_dataset_loading` passes for every triangulation, all random numbers and both orientations whenever the dataset can be made and both numbers of samples are even; with an odd number the count of the labels is wrong and the assertion fails. `test_ocean_dataset_generation` passes whenever the dataset can be made, the splits have the expected sizes (the rounded 80 and 20 percent of the paths) and the file has a face; without faces the maximum of the empty upper index is a RuntimeError. The checks of the flow tests accept a cochain exactly if its features, adjacencies and orientations are there, orientations and columns are equally many, both adjacencies are non-empty with indices below the number of cells, and all orientations are 1 or -1.", "quantifier": "all points, triangulations, regions, random numbers, orientations and numbers of samples; all contents of the ocean file with ascending faces along edges, all shuffles", "why_tests_cant": "The tests fix the seed, 300 or 400 points, 20 and 10 samples, and one data file.", "anchors": ["data/datasets/test_flow.py:8-67", "data/datasets/test_ocean.py:6-29", "data/datasets/flow_utils.py:27-63", "data/datasets/flow_utils.py:282-337", "data/datasets/ocean_utils.py:172-268"]}
{"id": "C118", "title": "The tests of loaders, subsets and the ring-transfer data pass", "statement": "`test_data_loader_shuffling` passes on a stored dataset of labelled complexes if and only if the permutation drawn changes the list of labels; it fails by chance for the identity and always if all labels agree. `test_idx_splitting_works` passes for every non-empty list of valid ids (also with repetitions), raises an IndexError for an id out of range and a RuntimeError for no ids. `test_ringtree_dataset_generation` passes for all rings of three or more nodes and all numbers of samples that are positive multiples of the number of classes, exactly for the expected count samples/classes; if the classes do not divide the samples, the generation raises. `test_ringtree_dataset_conversion` passes for all such datasets: every complex is a disc with one 2-cell, as many edges as nodes, and features of the same width everywhere. The check of a disc accepts a complex exactly if it has vertices, edges and 2-cells in these numbers, each with one row of the given width per cell.", "quantifier": "all stored datasets, permutations, batch sizes and lists of ids; all ring sizes, numbers of samples and classes, all aggregations that keep the width", "why_tests_cant": "The tests use PROTEINS with one seed and batches of 32, and rings of 10 nodes with 5 classes and 20 samples each.", "anchors": ["data/test_batching.py:1022-1061", "data/datasets/test_ringtransfer.py:9-43", "data/datasets/ring_utils.py:8-78", "data/data_loading.py:86-110"]}
{"id": "C119", "title": "On coinciding splits an experiment ends with coinciding scores", "statement": "The score of a split does not depend on the permutation drawn by the training loader, the batch size, or which of several splits with the same complexes it is, for every metric that does not depend on the order; this includes the exception if the metric raises one. An experiment whose training and evaluations succeed and that has an epoch always ends with a report. `test_run_exp_on_dummym` therefore passes on the dummy molecules for every network, all numbers of epochs, batch sizes and permutations, and everything the training does to the parameters. Without a test split its assertion always fails, because NaN is not equal to NaN.", "quantifier": "all stored datasets with one label per complex, all networks, permutations, batch sizes, orders of the splits, numbers of epochs and training procedures", "why_tests_cant": "The test runs one epoch with one seed, one network and batches of 3.", "anchors": ["exp/test_run_exp.py:4-27", "exp/run_exp.py:84-99", "exp/run_exp.py:360-467", "exp/train_utils.py:92-144", "data/datasets/dummy.py:46-91"]}
{"id": "C120", "title": "Downloads that are killed, wrong downloads and the version check", "statement": "After any history of constructions, killed at any step or declined, during which the right files are served, the next construction of the structural peptides that is agreed to and not killed reads a table and splits with the right hashes. For the functional peptides this holds if none was killed between the two renamings; if one was, every later construction raises FileNotFoundError whatever is served. A table or splits with a wrong hash, once on disk, stop every later construction, because an existing file is not downloaded again. The program asks for an update after a history exactly if the folder of the dataset was there without the hash at the beginning and no answer was 'y'; a download never changes this, and a table and splits that are there are used whatever version is expected.", "quantifier": "all histories of constructions, all points at which they are killed, all answers, all served files and all hash functions", "why_tests_cant": "The downloads are not tested: the network is needed, and the failures appear only when the program is killed at one step.", "anchors": ["data/datasets/peptides_functional.py:49-135", "data/datasets/peptides_functional.py:146-147", "data/datasets/peptides_functional.py:205-208", "data/datasets/peptides_structural.py:55-138", "data/datasets/peptides_structural.py:149-150", "data/datasets/peptides_structural.py:213-216"]}
{"id": "C121", "title": "Parallel conversion gives what the loop gives; what the checks of the order detect", "statement": "For every function, every input and every schedule of dispatches and completions, a parallel call that ends returns, or raises, what the loop over the input returns or raises, in the order of the input; it ends when all tasks are complete; the progress bar never exceeds its total and stands there at the end. Hence the conversion of a dataset with rings does not depend on the number of jobs, and the test of the parallel conversion passes for all datasets of simple labelled graphs. The checks after the conversion would accept complexes in another order exactly if each has the label, node features and number of edges of the graph at its position: for graphs with pairwise different labels or features only the right order is accepted, and two graphs that agree in all three can change places unnoticed.", "quantifier": "all inputs, functions, schedules, datasets and permutations of the result", "why_tests_cant": "The test runs one schedule on one list of molecules and needs several processes; a race shows up only under some schedules.", "anchors": ["data/parallel.py:5-20", "data/utils.py:501-545", "data/test_parallel.py:9-19"]}
{"id": "C122", "title": "Networks write into the batch they are given", "statement": "A call of a network (CIN0, SparseCIN, CIN++, the networks with embeddings, RingSparseCIN, EdgeCIN0) changes the batch it is given: afterwards the batch differs from the one given in the features of cells, and in nothing else. Therefore a second call with the same batch is not the same computation: for CIN0, SparseCIN and CIN++ without jumping knowledge the call number n + 1 returns what a network whose layers are repeated n + 1 times returns for the original batch. On batches of complexes with features every such call of SparseCIN succeeds, with one prediction per complex that depends on that complex only. The intermediate results RingSparseCIN returns with include_partial are what the batch holds after each layer, and asking for them does not change the prediction.", "quantifier": "all networks, layers, batches and numbers of calls", "why_tests_cant": "The tests call each network once on each batch; a second call raises nothing, it returns other numbers.", "anchors": ["mp/models.py:84-106", "mp/models.py:194-254", "data/complex.py:644-648", "mp/ring_exp_models.py:47-71", "mp/molec_models.py:90-161", "mp/models.py:382-413"]}
{"id": "C123", "title": "Longer rings and converting the graphs of complexes", "statement": "If no induced cycle of the graph has more than k and at most k' vertices, the ring complex for maximal ring size k' is the ring complex for k, with all tensors, numberings and labels and for every input, in particular for all sizes from the number of vertices on; if there is such a cycle, the ring complex for k' has more cells of dimension 2. The graph of a cell complex with features whose vertices and edges form a graph without loops and parallel edges is one that both conversions accept; if all features of vertices and edges have one width, both conversions of any list of such graphs succeed, with one complex per graph and that width. The tests that convert the graphs of the 23 hand-made complexes pass.", "quantifier": "all graphs, features, labels, ring sizes and flags; all lists of complexes", "why_tests_cant": "The tests compare the sizes 4 and 10 on the house only, and convert one list of graphs.", "anchors": ["data/test_utils.py:409-477", "data/test_utils.py:626-633", "data/utils.py:275-330", "data/utils.py:501-545", "data/dummy_complexes.py:8-25"]}
{"id": "C124", "title": "The reduction of the initial layers and its tests", "statement": "Reducing rows along boundary columns succeeds, for every reduction, exactly if the columns are given, not empty and name rows that are there; the result has one row per cell up to the last cell that has a column, the reduction of the rows of its columns. On a complex with features it has never more rows than cells, and as many exactly if the last cell has a face. The test of the embedding layer passes on such a complex of dimension at least 2, for every layer, exactly if the last edge and the last 2-cell have faces, so on every cell complex of dimension at least 2; on a smaller complex it raises an IndexError. The test detects every program that returns another number of matrices or of rows.", "quantifier": "all rows, columns and reductions; all complexes, features and embedding layers", "why_tests_cant": "The tests use one reduction and the house, whose last cells have faces.", "anchors": ["mp/test_layers.py:135-175", "mp/layers.py:473-500", "mp/layers.py:502-547"]}
{"id": "C125", "title": "The rectangles of the flow dataset", "statement": "With the rectangles of the flow dataset, start, end and the two checkpoints are pairwise disjoint, the holes are disjoint and do not meet the start, the end or the checkpoint on the other side, and each hole meets one checkpoint exactly in a corner; exchanging the coordinates exchanges start and end and keeps the rest. The three vertices drawn for a trajectory are therefore different; no point that remains is in a hole; and no sample of either split is the zero flow.", "quantifier": "all points, triangulations without repeated triangles, orientations, random numbers and sample counts; all linear orders for the coordinates, so also floating point numbers", "why_tests_cant": "The tests check one seed, and count the entries 1 and -1 without asking for one.", "anchors": ["data/datasets/flow_utils.py:14-24", "data/datasets/flow_utils.py:255-268", "data/datasets/flow_utils.py:282-307"]}
{"id": "C126", "title": "The oriented layer and networks work on every flow sample", "statement": "On every sample of a flow dataset that could be made, the oriented layer returns one row for every edge of the triangulation. test_orient_conv_on_flow_dataset passes exactly if the dataset can be made and has a training sample, and detects every program that returns another number of rows on the first one. Every network for edge flows with at least one layer and a known readout makes one prediction for each sample of every batch. So a network blind to orientations makes the same predictions over the validation loader whatever orientations the dataset is made with.", "quantifier": "all points, triangulations without repeated triangles, regions, orientations, random numbers and sample counts; all layers and networks, whatever their maps; all batches and batch sizes", "why_tests_cant": "The test applies one layer to the first sample of one seed.", "anchors": ["mp/test_layers.py:115-132", "mp/layers.py:443-455", "mp/models.py:522-546", "mp/models.py:590-615", "data/datasets/flow_utils.py:282-333"]}
{"id": "C127", "title": "The number of cochains of a batch", "statement": "A batch of cochains made from a list reports the length of the list as its number of cochains, every row belongs to a cochain with a smaller number, and every dimension of a batch of complexes reports the number of complexes. The fallback for batches without a recorded number is wrong: it reports two more than there are items with a known number of cells, so never the number of items if all know theirs, and raises an exception if none does.", "quantifier": "all lists of cochains and complexes for which batching succeeds", "why_tests_cant": "No test reads the number of cochains, and batches made by the library always record it.", "anchors": ["data/complex.py:321", "data/complex.py:340", "data/complex.py:482-487", "data/complex.py:690-728"]}
