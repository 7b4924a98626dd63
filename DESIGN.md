# Formal model of the cellular-network library (twitter-research/cwn)

The model and the proofs are in Lean 4 (4.33.0) with Mathlib, in `lean/`.
`properties.jsonl` lists the properties, `MANIFEST.json` says which theorem
proves which property, `seeded/LOG.jsonl` records the wrong programs the
theorems were tested against.

## Trusted base

* Lean's kernel.
* Axioms: `propext`, `Classical.choice`, `Quot.sound` (those of Lean and Mathlib). No axiom is
  added; there is no `sorry`, `admit`, `native_decide` or `bv_decide`. Checked with `#print axioms` for
  every theorem of `MANIFEST.json`. All three are used by every theorem except these:
  * no axiom: `C10_clearing_features_may_change_count`.
  * `propext` only: `C02_truncated_complex_counterexample`, `C07_explicit_count_lost`, `C39_copy_always_fails`, `C40_tu_degree_tags_collide`, `C40_zinc_down_adjacency_collides`, `C40_ogb_down_adjacency_collides`, `C40_peptides_down_adjacency_collides`, `C40_flow_sizes_collide`, `C46_orientation_matrices`, `C56_rejected`, `C57_other_tasks`, `C61_no_class`, `C75_tuning_splits_are_ignored`, `C82_single_columns_are_broadcast`, `C82_ring_gin`, `C82_ring_sparse_cin_other_vertices`, `C82_features_needed`, `C100_names`, `C124_no_features`, `C125_symmetric`, `C127_no_complexes`.
  * `propext, Quot.sound` only: `C09_cochain_constructor`, `C11_boundary_params`, `C11_params_defined`, `C11_all_params`, `C19_down_message_is_constant`, `C29_missing_vertex_is_an_error`, `C41_checks`, `C43_stripping`, `C43_nothing_to_strip`, `C50_square_matrices`, `C53_first_nan_is_best`, `C53_no_epochs`, `C54_empty_split`, `C56_graph_of_a_complex`, `C58_isolated_last_node_shifts_degrees`, `C59_answer_is_unique`, `C59_known_values_are_kept`, `C60_classes`, `C60_sizes`, `C71_no_keys`, `C78_sources`, `C78_refused`, `C80_peptides_checks`, `C82_parameters`, `C82_no_layers`, `C82_edge_networks`, `C87_named_parameters`, `C101_prepared`, `C101_preparation_fails`, `C101_preparation_needs_ring_sizes`, `C102_compare_accepts_itself`, `C102_compare_overlooks_labels`, `C106_what_the_tests_compare`, `C108_given_split`, `C108_missing_row_not_noticed`, `C115_empty_upper_index`, `C123_graphs_of_complexes`, `C124_what_the_test_detects`, `C125_regions`, `C125_three_vertices`, `C127_recorded`, `C127_without_record`, `C127_never_right`.
* The hand translation of the Python functions into Lean definitions. Every
  definition cites the file and lines it models and says where it simplifies.
* The contracts of the external libraries listed below.

## Modelling conventions

* Python exceptions are values: `Except PyErr α`, one constructor per exception class.
* A 2xN index tensor is a list of columns `List (Nat × Nat)`; a feature matrix is a
  list of rows of an arbitrary row type; an absent attribute is `none`.
  An attribute that may be missing *or* set to `None` (`__num_cells__`) is `Option (Option Nat)`.
* Floating point is replaced by exact arithmetic (an arbitrary commutative monoid,
  ring or ordered field, as each theorem needs). Rounding is not modelled.
* Neural-network modules (`Linear`, `BatchNorm` in evaluation mode, embeddings,
  activations) are arbitrary functions on rows. In training mode (C95, C96, C98) batch
  normalisation takes its statistics from the batch, dropout is left out (rate 0), and the
  step of the optimiser is an arbitrary function.
* Random choices are parameters (streams of drawn numbers), so theorems hold for every run.
* Devices, dtypes, `contiguous`, logging and printing are not modelled.

## External contracts

Where a contract is a Lean structure its name is given; a library that meets it is exhibited in the
fixtures, so the contracts are satisfiable.

* `torch.cat`, `index_select`, boolean masks: list append, checked lookup, filter.
* `torch_scatter.scatter(src, index, dim_size, reduce)`: row `c` of the result is the
  reduction of the rows of `src` whose index is `c` (zero row when there are none);
  an index outside `dim_size` is an error.
* `gudhi.SimplexTree` (`Gudhi.Ok`): after `expansion(k)` it enumerates, in some order, exactly the cliques
  with at most `k+1` vertices of the inserted graph, each as an increasing vertex list;
  `get_boundaries`/`get_cofaces(_, 1)` list codimension-one faces/cofaces in some order.
* `graph_tool.subgraph_isomorphism(induced=True)` (`RingLib.Ok`): lists the induced embeddings of a cycle,
  in any order; a Python set is iterated in some order.
* scipy sparse products and `tocoo` (`SparseLib.Correct`, `CooLib.Correct`): the non-zero positions, each once.
* networkx: nodes and neighbours in insertion order; `incidence_matrix(oriented=True)` has -1 and 1 in the rows
  of the two ends.
* `torch_geometric.utils.degree`: counts, as many as the largest index plus one.
* `np.unique`: sorted distinct values and the place of every entry (as a vector). `np.argmax`/`argmin`: the first best
  entry, NaN counting as best. `torch.pdist`: all pairs, row by row.
* `sklearn`'s `accuracy_score` and `mean_absolute_error`: by their definitions.
* The iteration order of a set of node tags (`SetOrder`): some order without repetitions.
* joblib: results in the order of the inputs.
* `torch_geometric`'s `Batch`, `GINConv`, `global_add_pool`, `global_mean_pool`: disjoint union with a batch vector,
  `nn((1 + eps) x_i + sum of x_j)`, sums and means over the nodes of a graph.
* `LabelBinarizer().fit_transform` (scikit-learn) is modelled by `binarize`: `ValueError` for no values, a zero column for one class, one column for two classes, one column per sorted class otherwise. `np.random.permutation` and `random.randint` are parameters constrained to their documented ranges. `np.long` (removed in numpy 1.24) is taken to exist.
* `np.mean`, `np.std`, `np.max`, `np.min`, `np.median`, `np.asarray` on lists of floats (rationals or NaN)
* `torch.utils.data.DataLoader` (sampler, `batch_size`, `drop_last=False`) and indexing of `torch_geometric.data.Dataset` by a list, as described at the head of `Model/Loader`
* `StratifiedKFold(n_splits=10).split`: ten (train, test) pairs, each a division of the items, the test parts together a division of the items (`TenFolds`)
* `torch_geometric.utils.to_undirected`: the edges in both directions, each once (`Undirects`)
* `ogb.utils.smiles2graph` (external): any function to graphs; C80 asks that the graphs are molecules in the sense of `Molecule`
* `torch_geometric.utils.remove_self_loops`: the edges with different ends, in order
* `Linear`, `BatchNorm1d`, `LayerNorm`, `Sequential`, `torch.cat`, `torch.stack`, broadcasting of a single column: their effect on numbers of columns and `RuntimeError` on wrong ones (C82)
* `JumpingKnowledge`: accepts `'cat'` and `'max'`, an assertion fails otherwise (`'lstm'` needs arguments that are not passed)
* `GINEConv`: asserts that node and edge features have as many columns
* `Inspector.keys`, `Inspector.distribute` of PyTorch Geometric: names of parameters; value or default, `TypeError` without either (C83)
* `torch_sparse.SparseTensor`: entries sorted by row; `gather_csr`, `segment_csr` work on the segments of the row pointers (C83)
* `scipy.spatial.Delaunay`: parameter `simplices` of `loadFlowDataset` with the hypothesis that every triangle has three different corners below the number of points, every point is a corner, and no two triangles have the same corners (C84)
* `np.random` draws in the flow datasets: parameters (`SampleDraws`), with a list of attempts per sample in place of the unbounded `while` (C84)
* `OGBEvaluator(name)` either knows the name and has a metric, or raises; `torch.nn.Linear` rejects `None` as a size; datasets have been downloaded and their files are well formed (C86).
* `torch.nn.Module` registers parameters and children on assignment, replaces a child that is assigned again, and `named_parameters` skips parameters seen before; `ModuleList` and `Sequential` have no `reset_parameters`; `torch_geometric.nn.inits.reset` is modelled in the version of PyG 1.6.3 and in the later one; `JumpingKnowledge('cat' or 'max')` has no parameters (C87).
* `torch_geometric.data.Dataset._process` and `files_exist` (1.6.3): `process` runs unless all processed files exist, and an empty list of names counts as missing. `torch.save`, `torch.load` and `pickle`: what is written is read back, one file is written at once. Nothing else writes to the folders (C89).
* `BatchNorm1d` in training mode: raises `ValueError` on exactly one row; otherwise normalises each row with the mean of the rows and their mean squared deviation. `LayerNorm` and `Identity` act on each row. Dropout is left out (rate 0).
* torch criteria with the default reduction: the mean over the entries, NaN for none. `CrossEntropyLoss` raises `IndexError` for a class that is not among the outputs; its value for a row, and that of `BCEWithLogitsLoss` for an entry, are parameters. sklearn's `mean_absolute_error` raises `ValueError` on NaN.
* pandas: `mean` and `std` leave NaN out, `std` divides by the number of values less one; `0 / 0` is NaN. Arithmetic is exact.
* `learn` stands for `zero_grad`, `backward` and `optimizer.step` (exp/train_utils.py:57, 70-71): the new state is determined by the old state, the running statistics, and the loss of the batch as a function of the state. Arithmetic is exact: with floats, sums in another order may differ in the last digits. `BatchNorm1d` moves its running mean and variance by functions of the number of rows, the old value and the statistic of the rows, and leaves them as they are without rows. Dropout is zero.
* `str` and `float` of numpy numbers: what is written is one word without a colon and reads back as the same number (`Prints`). `git describe` and `str(args)` have no line breaks; argparse shows strings with `repr`. matplotlib draws a bar from `bottom` to `bottom + height`.
* `itertools.product` is the lexicographic product; `yaml.safe_load` keeps the order of the file; `argparse` takes an option by its name or by a unique beginning, takes texts that begin with a dash as values only if they are negative numbers, and ends with `SystemExit` otherwise (`parseLine`; no `--name=value`). What `int` and `float` read is a parameter (`NumberSyntax`) with the contract that written integers are read back.
* `networkx.simple_cycles` (`CycleLib.Ok`): what it yields are circuits of the directed graph, and every circuit is yielded from some starting point.
* Double precision (`torch.set_default_dtype(torch.float64)`, `.double()`) is not modelled: numbers are exact. `torch.max` of an empty tensor is a RuntimeError.
* The hand-made complexes: a feature row `[n]` is `num n` for an arbitrary function `num`, so that the statements hold for whatever the numbers become in a feature space. Labels of vertices are written as in the file.
* C111: `average_precision_score`, `roc_auc_score` (scikit-learn) and OGB's evaluators `rocauc`, `ap` are written out in Model/Ranking as documented; scores are elements of a linear order (no NaN among predictions), labels 0, 1 or NaN. OGB's `rmse` and other keys are not modelled.
* C112: `F.dropout` keeps an entry with probability 1 - p, independently, scales kept entries by 1/(1 - p), and is the identity in evaluation mode; the mask is an input. The embedding networks (EmbedSparseCIN, EmbedCINpp, OGBEmbedSparseCIN) are treated in evaluation mode only, as they also drop entries of the cells in front of nonlinear maps; EmbedGIN, EdgeOrient and EdgeMPNN are treated in C114.
* C113: `torch.equal` and `torch.allclose` compare exactly; arithmetic is exact, so the equalities that `torch.equal` demands of floating point numbers are not claimed for rounded arithmetic.
* C114: `F.dropout` as in C112.
* C115: `torch.cat` of a list with `None` in it raises `TypeError`.
* C116: `MessagePassing().propagate(edge_index, x=x)` of torch_geometric sums the rows of the sources at the targets.
* C117: `max()` of a tensor without entries raises a RuntimeError; the entries of the flows are integers (exact floats in the code).
* C118: `torch.cat` of no tensors raises a RuntimeError, and a TypeError if an entry is not a tensor; the permutation of the shuffling loader is a parameter.
* C119: the permutation that the training loader draws is a function of the state, so that two evaluations in the same state use the same one; the theorem on scores shows that this does not matter.
* C120: `download_url` (torch_geometric 1.6.3) keeps an existing file and otherwise writes what is served; `Dataset._download` calls `download` unless the raw file exists; a program can be killed between any two steps; `decide_download` is an arbitrary answer. The processed files are taken to be absent.
* C121: joblib dispatches tasks in the order of the generator, runs each once with its own arguments, in batches of one, and retrieves results in the order of dispatch; the machine of Model/Parallel is this contract. Workers share no state, so the function depends on its arguments only (this is not so for the random flows, which C44 and C84 treat with the random numbers as inputs).

## Modules

| module | models |
|---|---|
| `Verif/Base` | `PyErr`, dictionaries, error-propagating loops |
| `Verif/Model/Cochain`, `Complex`, `Batch` | `data/complex.py` |
| `Verif/Model/MessagePassing`, `Layers`, `Models`, `Embed`, `Oriented` | `mp/cell_mp.py`, `layers.py`, `models.py`, `molec_models.py`, `ring_exp_models.py`, `nn.py` |
| `Verif/Model/Lifting`, `Rings`, `Convert` | `data/utils.py` |
| `Verif/Model/Dataset`, `FeatureLookup`, `Folders`, `ToGraph` | `data/datasets/dataset.py`, the `processed_dir` names, the splits of `zinc.py` and `cluster.py`, `convert_to_graph` |
| `Verif/Model/Matrix`, `Flow`, `Ocean`, `RingData` | `data/datasets/flow_utils.py`, `ocean_utils.py`, `ring_utils.py` (ring transfer) |
| `Verif/Model/Perm`, `TU`, `CountRings`, `Experiment` | `data/perm_utils.py`, `data/tu_utils.py`, `exp/count_rings.py`, `exp/train_utils.py`, `exp/run_exp.py:346-478` |
| `Verif/Spec/*` | specifications, not used by the model |
| `Verif/Lemmas/*` | auxiliary lemmas |
| `Verif/Props/*` | the property theorems, with a concrete non-trivial case beside each |
| `Verif/Fixtures*` | the concrete cases |
| `Model/GraphNets` | `mp/graph_models.py`, `mp/ring_exp_models.py:76-127` |
| `Model/RingProcess` | the `process` methods of the two ring datasets |
| `Model/RingLookup` | generation of the ring-lookup graphs |
| `Spec/RingNets`, `Spec/RingProcess` | what the ring models predict; what a disc complex is |
| `Lemmas/Reach`, `Lemmas/ReachAll`, `Spec/Reach` | radius of dependence of a network; additive networks |
| `Model/Summary` | exp/run_tu_exp.py, exp/run_mol_exp.py, exp/run_ring_exp.py (standard deviations as their squares) |
| `Model/Loader` | data/data_loading.py:44-110 for complexes, data/datasets/dataset.py:97-102 and 364-372, exp/run_exp.py:84-99 |
| `Model/TUDataset` | data/datasets/tu.py, data/tu_utils.py:229-239 |
| `Model/SR` | data/datasets/sr.py, data/sr_utils.py, exp/prepare_sr_tests.py:25-32, exp/test_sr.py:80-87, exp/run_sr_exp.py |
| `Model/Molecules` | data/datasets/zinc.py, ogb.py, csl.py, peptides_functional.py, peptides_structural.py (`__init__`, `process`, splits) |
| `Model/Widths` | mp/models.py, mp/molec_models.py, mp/graph_models.py, mp/ring_exp_models.py, mp/layers.py, mp/nn.py: the constructors and `forward` on numbers of columns |
| `Model/Framework` | mp/cell_mp.py, mp/cell_mp_inspector.py: the base class with signatures, dictionaries, sizes and sparse adjacencies |
| `Model/FlowData` | data/datasets/flow_utils.py, ocean_utils.py, flow.py, ocean.py: the loaders of both edge-flow datasets, their classes and their batches |
| `Spec/CellNet` | specification of the networks as functions of sets of vertices (no code modelled) |
| `Lemmas/CellNet`, `Lemmas/CellNetLift` | the simulation between tensors and sets, for a layer and for both lifts |
| `Model/Config` | exp/parser.py, data/data_loading.py:113-258, exp/run_exp.py:19-358, exp/train_utils.py:149-165 and the constructors of the datasets as far as they check arguments |
| `Model/Modules` | the constructors and `reset_parameters` in mp/layers.py, mp/models.py, mp/molec_models.py, mp/graph_models.py and mp/ring_exp_models.py, and exp/run_exp.py:331-340; values of parameters, buffers and names are left out |
| `Verif/Model/Storage` | `processed_file_names`, `process` and the loading of all classes under `data/datasets/` |
| `Verif/Spec/Skeleton`, `Verif/Spec/Regular` | colour refinement with edge features, cliques, triangles, strongly regular graphs |
| `Verif/Spec/Baselines` | formulas of the two baselines on features and on vertex sets |
| `Verif/Spec/EdgeNet` | formula of `EdgeCIN0` on complexes and on vertex sets, and what it may look at |
| `Verif/Model/Cluster` | `ClusterDataset` |
| `Verif/Model/TrainMode` | the layers of SparseCIN and CIN++ in training mode |
| `Verif/Spec/TrainMode` | evaluation with the statistics of a batch |
| `Verif/Model/Loss` | the losses, the mean loss of a split, `mae` with missing labels |
| `Verif/Spec/Loss` | mean error over the labels that are present |
| `Verif/Model/Normalise` | the normalisation of the targets of the structural peptides |
| `Verif/Spec/Normalise` | mean, sample variance and the standardised column |
| `Verif/Model/Learn` | what a training step does to the running statistics; training and evaluation of a network on three splits |
| `Verif/Spec/Learn` | the statistics over all cells that a layer meets; renumbered complexes; losses that ignore order |
| `Verif/Model/SRPlot` | the results file of the experiments on strongly regular graphs and the plot that reads it |
| `Verif/Spec/SRPlot` | numbers that read back as written; digits of a family |
| `Verif/Spec/SRDims` | parameters of the families, counting bound for cliques |
| `Verif/Model/Tuning` | grids of the TUDatasets, the command line, the preparation of the datasets |
| `Verif/Spec/Tuning` | mixed radix digits, the option a name stands for, values that an option takes |
| `Verif/Spec/Checks` | circuits, the contract of networkx, the vertices on a 2-cell, complexes that agree |
| `Verif/Spec/Lower` | complexes whose adjacencies come from their faces |
| `Verif/Model/Magnitude` | the script on magnitudes of embeddings and the self-isomorphism test |
| `Verif/Spec/Magnitude` | graphs with short rings, absolute values of entries |
| `Verif/Model/Dummies` | the hand-made complexes, the dummy datasets, the tests of batching and permutations |
| `Verif/Spec/Dummies` | cell complexes: faces, ends, closed boundaries |
| `Verif/Model/Partial` | intermediate results, the tests that compare them |
| `Verif/Spec/Partial` | results of a batch put together from those of its members |
| `Verif/Model/Faces` | faces from the incidence matrix |
| `Verif/Model/TUTests` | test of degrees as tags, graphs of a fold |
| `Verif/Model/CINTrain` | CIN0 in training mode |
| `Verif/Spec/CINTrain` | statistics of messages and cells |
| `Verif/Model/GINTrain` | the graph baselines in training mode |
| `Verif/Spec/GINTrain` | statistics of the nodes of a batch |
| `Verif/Model/Ranking` | average precision and ROC-AUC, `Evaluator._ap` and `_ogb` |
| `Verif/Spec/Ranking` | precision among the entries scoring at least as high, duels of positives and negatives |
| `Verif/Model/Dropout` | dropout in the forward passes, with the random numbers as inputs |
| `Verif/Spec/Dropout` | the weight of a mask, expected values, unbiasedness |
| `Verif/Model/OrientTests` | the tests of the oriented networks |
| `Verif/Spec/OrientTests` | matrices that fit the edges, columns that meet, lists of signs |
| `Verif/Model/EdgeDropout` | dropout in EdgeOrient, EdgeMPNN and EmbedGIN, with the random numbers as inputs |
| `Verif/Model/BatchTests`, `Verif/Spec/BatchTests` | the tests of data/test_batching.py that compare features and indices of batches and complexes |
| `Verif/Model/MPTests`, `Verif/Spec/MPTests` | the message passing tests of mp/test_cell_mp.py and sums along boundaries |
| `Verif/Model/FlowTests` | the tests of data/datasets/test_flow.py and test_ocean.py |
| `Verif/Model/LoaderTests` | the tests of data/test_batching.py:1022-1061 and data/datasets/test_ringtransfer.py |
| `Verif/Model/RunTest` | exp/test_run_exp.py from the training loop on |
| `Verif/Model/Download` | the constructors and `download` of the two classes of peptides, up to the point where `process` reads its sources |
| `Verif/Model/Parallel` | data/parallel.py, the conversion with a schedule, data/test_parallel.py |
| `Verif/Model/Reuse` | forward with the batch it leaves behind; repeated calls |
| `Verif/Model/ConversionTests` | the two tests that only convert |
| `Verif/Model/LayerTests` | the tests of the reduction and of the embedding layer (widths of embeddings left out) |
| `Verif/Model/FlowRects` | the rectangles of the flow dataset, with the six numbers as abstract increasing ones |
| `Verif/Model/OrientFlow` | the test of the oriented layer on the flow dataset |
| `Verif/Model/BatchCount` | `num_cochains` of a batch of cochains |

Not modelled: gradients and the optimisers themselves, training mode of CIN, CIN0 and EdgeCIN0, downloads, drawing
(except what the plot of the SR results reads and shows, C99), progress bars, `to`/`cuda`, the texts that are only printed,
and the test files. Command lines are modelled as far as the grids use them (C101).

## Properties

| id | modelled | how proved |
|---|---|---|
| C01 | `from_cochain_list` as a loop with a running offset per key, optional attributes | the loop equals the flattened list of shifted items, induction on the list with the offset generalised |
| C02 | same loop with the three increments of `__inc__`; `from_complex_list` filling missing dimensions | same induction; the increments of a constructed complex are the neighbouring counts |
| C03 | batch/ptr accumulation | induction on the list; pointer characterised by prefix sums |
| C04 | validity predicate on complexes and on batches | from C01-C03: a shifted index lies in the segment of its item |
| C05 | `unbatch`, a specification function taking segments and unshifting | `unbatch (batch cs) = cs` |
| C06 | `from_complex_list` | unfolding, induction for the label accumulation |
| C07 | `num_cells` of a batch | under "features on every item with cells" by induction; a counterexample for the general claim |
| C08, C09 | constructor and `_consolidate`, with `keys`/`__contains__` | induction on the list of cochains; iff for acceptance |
| C10 | `x` setter, `set_xs` as a sequential loop returning the mutated state also on failure | induction on the list of matrices |
| C11 | `get_cochain_params`, `get_all_cochain_params` | case analysis on the switches; lookup lemmas |
| C12, C13 | `propagate`, `__collect__`, `__lift__`, `update`, scatter | scatter lemma: row = sum over filtered columns; permutation lemma |
| C14 | the layers | relabelling lemma for `propagate`, then composition |
| C15, C16 | layers and `SparseCIN.forward` on a batch | block lemma: scatter of a disjoint union is the concatenation; induction on the layers |
| C17 | `SparseCIN.forward` | C14 by induction on layers and permutation-invariant pooling |
| C18 | `pool_complex` | scatter lemma over the batch vector |
| C19, C20 | CIN++ and no-rings forward | non-interference: the two runs read the same data |
| C21 | `InitReduceConv`, `AbstractEmbedVEWithReduce` | double counting on a cycle |
| C22 | `OrientedConv`, `EdgeOrient` | sign algebra per row, induction on layers |
| C23-C29 | `data/utils.py` clique lifting with an enumeration of simplices as parameter | loop invariants for tables and adjacency accumulation |
| C30 | `extract_labels` | case analysis |
| C31, C32 | `get_rings`, ring boundaries | set-keyed deduplication; induced cycles |
| C33 | edge-feature part of `compute_ring_2complex` | loop invariant for the map edge id -> feature |
| C34 | composition of lifting and model | isomorphism of lifted complexes is a relabelling, then C17 |
| C35 | dataset conversion loops | induction |
| C36-C39 | `collate`, `get`, `_get_cochain`, `len`, cache, `copy` | slice lemma; invariant of the cache over call sequences |
| C40 | processed-dir strings | injectivity of the string encoding; counterexamples for ZINC/OGB |
| C41, C46 | flow boundary matrices and adjacency extraction | matrix algebra per entry |
| C42, C43 | `path_to_flow`, `strip_paths` | induction on the walk; stack invariant |
| C44 | `generate_trajectory` loop with an oracle for the random choices | loop invariant (simple path) |
| C45 | `create_hole` | renumbering = number of kept points below, induction on the descending list |
| C47 | rounding | arithmetic |
| C48, C49 | ring data generation | arithmetic and list lemmas |
| C50, C51 | permutation utilities | matrix facts |
| C52 | `Evaluator._isomorphism` on any distance | induction on the predictions; permutation invariance of the pair list |
| C53 | the epoch loop of `run_exp.main`, `np.argmax/argmin` with NaN | induction on the epochs (curve invariant), first-optimum lemma |
| C54 | `count_rings.py` on any ring library meeting the contract | dictionary invariants over the loops |
| C55 | splits of ZINC and cluster, `get_split` | induction on the parts |
| C56 | `convert_to_graph` | case analysis, shares lemmas with C11 |
| C57 | `train` with an arbitrary optimiser step | induction on the loader |
| C58 | `load_data` word by word, `S2V_to_PyG` | loop invariants against a printed file |
| C59 | `num_features_in_dim` and its look-up, sequences of questions | invariant of the table |
| C60 | class assignment of `load_flow_dataset` | arithmetic |
| C61 | `orientation`, `extract_label`, the path clean-up of `load_ocean_dataset` | ring algebra; C43 |
| C62 | `infer`, `eval`, metrics with the networks of C16 | C16 for every batch, induction on the loader |
| C63 | the networks of C20 on batches, the initial layer of C21 | batching commutes with replacing features, so the embedded batch is the batch of the embedded complexes; then C16/C17; the GIN baseline as a layer on vertices only |
| C64 | `compute_ring_2complex` (C25-C33) followed by the networks of C16 and C63 | an isomorphism carries induced cycles to induced cycles, so it carries the cells of one complex to those of the other, with faces and features; then the renumbering theorems of C17 and C63. The two liftings may use different simplex trees and cycle searches |
| C65 | the networks of C16 | `Spec/Colour` says when two cells have the same colour after n rounds (as a relation, no hashing). One layer of a network is at most one round: cells alike after n + 1 rounds are alike after n rounds in the updated views. Examples: a hexagon and two triangles without rings, never separated, though not renumberings of each other |
| C66 | SparseCIN of C16 over vectors with countably many coordinates | parameters that lose nothing: messages and updates are one-hot codes, and `eps = -1/2` keeps the cell's own row apart from the messages. By induction, equal rows after n layers mean equal colours after n rounds. Parameters are arbitrary functions in the model (the code has multi-layer perceptrons in their place) |
| C67 | the four models of `mp/graph_models.py` in evaluation mode; `GINConv`, `Batch` and the poolings of PyTorch Geometric are contracts | the layers node by node; a batch is the disjoint union, so the rows of a graph are those it has alone; then matching of rows along colour classes as in C65 |
| C68 | ring lifting (C25-C33), SparseCIN (C16), GIN (C67) | the upper neighbours of a vertex in the ring complex are its neighbours in the graph, so a SparseCIN that ignores boundaries is a GIN; a ring of length k has k boundary edges, so a SparseCIN that sends ones from boundaries can recognise and count them; a hexagon and two triangles are regular of the same degree |
| C69 | `RingNet.forward`, `RingGIN.forward`, `maskRows`, `setNodes` | refinement: the batch run is split by the batching lemmas of the layers (C20, C59), then the mask of a batch is the concatenation of the masks |
| C70 | `ringTransferProcess`, `ringLookupProcess`, `markComplex`, `markOneRing` with the ring lifting of C31-C35 | the induced cycles of the cycle graph are exactly one; the lifted complex is then known up to the order of the libraries, and marking changes rows and mask only |
| C71 | `ringLookupGraph`, `binarize`, `ringLookupDataset`, `loadRingLookup` | the sorted classes of a permutation are an interval; the code of a class is injective |
| C72 | `RingNet`, `RingGIN`, `ringTransferProcess`, `RingGraph.gdata` | agreement of rows within a radius is an invariant of one layer (distance to the label on the ring, through the 2-cell it is at most three); the converse runs additive networks and follows the weight of the label row |
| C73 | `foldSummary`, `crossValidation`, `commonLength`, `npMean`, `npVar`, `npMax`, `npMedian` | `argmax` of C53 on the averaged curve; the median by counting in a sorted list; combined with the report of C53; witnesses for early stopping and `--minimize` |
| C74 | `molRuns`, `molSummary`, `molExperiment`, `ringExperiment` | combination with C53 for every run; invariant of the nested loops for the dictionary of results |
| C75 | `splitIds`, `chunks`, `Dataset.getMany`, `Dataset.load`, `splitLoader`, `runLoaders` | cache invariant of C38, storage of C36 (what is read has the same view and label and is still ready for message passing), inference and evaluation of C62; divisions into parts are unique |
| C76 | `tuProcess`, `tuFold`, `loadTUGraphs`, `tuDataset` | the complexes of C28 and of the ring lifting are storable; conversions of C35, storage of C36, loaders of C75, isomorphisms of C34 and C64 |
| C77 | `getFoldIndices`, `tuFold`, `loadTUGraphs` | from the contract `TenFolds` of the splitter |
| C78 | `readG6`, `srRaw`, `srGraph`, `loadSRGraphs`, `srConvert`, `srProcess`, `srLoad`, `srDataset`, `permutedRaw`, `permutedFile`, `validateSelfIso` | induction on the history of constructions with the invariant `FilesHold`; lifting deeper than a graph reaches changes nothing (`lifted_deeper`); C35, C36, C51, C75 and invariance of networks |
| C79 | `srRun`, `srSummary`, `srExperiment` | case analysis of the arguments; averages as in C73 |
| C80 | `zincProcess`, `zincDataset`, `topFeatures`, `ogbProcess`, `ogbDataset`, `removeSelfLoops`, `cslPopulate`, `cslProcess`, `cslDataset`, `peptideGraph`, `peptideSplits`, `peptidesProcess`, `peptidesDataset` | conversion of all graphs (C35) and storage (C36); case analysis of the split files |
| C81 | the datasets of C80, `splitLoader`, `infer`, `evalModel`, the embedding networks | what is read is the stored complex up to the order of shared coboundaries (`SameComplex`), so the identity relabels it (`RelabelsCells`); C63, C64 and C75 |
| C82 | `Mod`, `seqOut`, `LevelShape`, `paramShapes`, `runWidths`, `finalWidths`, `poolWidths`, the constructors (`SparseArgs.sparseCIN`, `.cinpp`, `EmbedArgs.*`, `CINArgs.cin0`, `.edgeCIN0`, …) and their `forward` | invariant of the loop over the layers: the first dimensions of the batch have `layer_dim` columns (`stamp`); `params_sound` ties the shapes to the parameters of C11 |
| C83 | `MPObject`, `collect`, `distribute`, `checkSeparately`, `checkTogether`, `setSize`, `lift`, `MPObject.messageAndAggregate`, `MPObject.propagate`, `baseAggregate`, `baseUpdate`, `libraryObject`, `implements` | steps of the collecting loop commute on success, so permutations of the names give the same dictionary; then the library is evaluated in one order and compared with `propagate` of C12; segments of sorted rows are the buckets of scatter |
| C84 | `flowTriangulation`, `generateFlowCochain`, `flowSamples`, `loadFlowDataset`, `oceanCochain`, `loadOceanDataset`, `flowDataset`, `oceanDataset`, `cochainLoader` | edges and triangles of the boundary matrices (C41, C42), trajectories (C61), signs (C46) composed per sample; batches as disjoint unions: every layer maps the joined rows to the joined results, pooling returns one row per sample |
| C85 | `FGraph.lift`, `RGraph.lift`, `fromComplexList`, `SparseNet.forward`, `CINNet.forward`, `EmbedNet.forward`, `forwardNoRings`, `EmbedGIN.forward` | recursion over `Finset (Finset Nat)` (`Cells.run`, `predictOn`); simulation `Shows` between the tensors of a complex and functions on sets, preserved by every layer (sums over index columns become sums over cofaces and faces), established for both lifts |
| C86 | `Args`, `validateArgs`, `loadDataset`, `loadGraphs`, `startNet`, `startGraphNet`, `makeEvaluator`, `makeScheduler`, `startExp` | equivalences `startExp = ok s ↔ conditions ∧ s = …` for every family of datasets (inversion of the monadic stages, tables looked up by name), combined with C82 for the sizes of predictions |
| C87 | `NNModule`, `namedParameters`, `totalParams`, `resetParameters`, constructors of all the networks in a state of fresh identities | every constructor creates an interval of fresh identities with a known total (`Creates`), composed over layers by induction; the statements of `reset_parameters` reach known sets of parameters (`Reaches`), or one of them raises and only `AttributeError` can be raised (`OnlyAttr`, structural induction on modules) |
| C88 | `SparseNet.forward`, `EmbedNet.forward`, `EmbedNet.forwardNoRings`, `PPLevel`, `SparseLevel` | the first two by unfolding and induction on layers; the others from the vertex-set formulas of C85, with an induction over layers in which agreement shrinks by one dimension per layer (`Cells.run_range`) |
| C89 | `openDataset`, `openAll`, `Store`, the file names of all classes | invariant over histories: complete files are those of the first complete run, otherwise the last file is missing (a run that is cut short writes a strict prefix); folders told apart by C40; SR by an invariant on every file |
| C90 | `FGraph.lift`, `RGraph.lift`, `SparseNet`, `CINNet`, `EmbedNet.forwardNoRings`, `EmbedGIN`, `GINNet` | predictions on complexes are the networks on sets of cells (C85); on complexes without cells above the edges the layers are followed by induction and depend on the unfolding of a node only; the simulation reads upper neighbours; four concrete graphs |
| C91 | `FGraph.lift`, `RGraph.lift`, `SparseNet`, `CINNet` | predictions on complexes are the networks on sets of cells (C85); by induction over the layers all cells of a dimension keep one feature; cells are counted twice; ring sets of three nodes are cliques |
| C92 | `AgnosticNet.forward`, `DummyNet.forward`, `FGraph.lift`, `RGraph.lift` | the batch is split into its complexes (as in C16); `Dummy` is `CIN0` with the rule of its layers and missing levels; predictions on vertex sets as in C85; double counting by sizes of cells |
| C93 | `EdgeNet.forward`, `EdgeNet.run`, `EdgeNet.written`, `FGraph.lift`, `RGraph.lift` | the loop is a run of three dimensions with a rule of its own in dimension 2, then the batch is split as in C16; blind spots by induction over the layers; vertex sets as in C85 |
| C94 | `cliqueComplex`, `ringComplex`, `convertWithGudhi`, `convertWithRings`, `SparseNet.forward`, `EmbedNet.forward`, `clusterDataset` | a simulation: every step of the lift with the switch on is matched by the step with it off on the state without lower adjacencies; predictions by C16, C19 and C63; the CLUSTER dataset by C35 and C55 |
| C95 | `NormNet.train`, `UpdateNet.train`, `SparseTrain.forward`, `PPTrain.forward`, inside `SparseNet.forward` and `EmbedNet.forward`, `numSamples` | each level in training mode equals the level with the statistics of its rows (or raises); induction over the layers; the rows of a batch are those of its complexes (C15), and statistics do not see their order; then C16 and C57 |
| C96 | `viewAs`, `maskedPairs`, `maskedLoss`, `classLoss`, `meanOrNaN`, `splitLoss`, `maeOfArrays` | labels of a batch by C06; reshaping undoes concatenation by induction; list sums as finite sums over the labelled places |
| C97 | `columnMean`, `columnStd`, `standardEntry`, `standardise`, `columnOf`, `standardRows`, `structuralTable` | list sums as finite sums over the rows with a value; mean and variance of an affine image; the witness for the dependence by computation |
| C98 | `NormNet.after`, `UpdateNet.after`, `SparseTrain.after`, `PPTrain.after`, `convsAfter`, `SparseNet.after`, `Lab`, `labStep`, `labTrain`, `labEval`, `Lab.trial` | the running statistics equal those of a specification over the views of the complexes, which only sees rows up to order (C95); equality of step, evaluation and report by congruence along the epochs (relational fold); from graphs by the isomorphism of ring lifts |
| C99 | `pyStrip`, `splitColon`, `fileLines`, `familyText`, `srText`, `srFile`, `plotLine`, `readResults`, `plotBars` | the lines of the text by induction on it; one step of the reader for each kind of line; induction on the families; with C79 for the runs |
| C100 | `srMaxDims`, `srRun`, `FGraph.lift`, `plotNames`; the parameters and the bound are specification (`srParams`, `CliqueFits`) | double counting over finite sums and Cauchy-Schwarz; a clique with one node too many contains one that violates the bound; predictions by C85; witnesses (Latin square, triangular graph, lines of a projective space, symplectic quadrangle) by computation |
| C101 | `gridProduct`, `expQueue`, `tuneArgs`, `tuneLines`, `parserOptions`, `parseLine`, `parseArgs`, `beginExps`, `foldLines`, `resultFile`, `prepareOne`, `prepareTuning` | induction on the lists (mixed radix), permutation of the residue classes, a lemma that characterises reading a line of names and values in both directions, injectivity of decimal notation; preparation by computation of each choice |
| C102 | `checkEdgeIndex`, `getTable`, `edgeToId`, `checkEdgeAttr`, `nxRings`, `isChordless`, `complexRings`, `ringTest`, `splitTest`, `compareComplexes`, `compareComplexesWithout2` | chordless circuits of a symmetric graph are the induced cycles; counting (as many vertex sets as 2-cells) makes the assignment of rings to cells injective; every check characterised by an equivalence; read-back by C36 |
| C103 | `FGraph.lift`, `RGraph.lift`, `CINNet.forward`, `SparseNet.forward` (already modelled), `View.FromFaces` (spec) | adjacencies of lifted complexes are those of their faces; the cofaces of a face are recovered from its upper neighbours by counting (every coface with k faces is met k-1 times), so lower neighbours = cofaces of faces are seen two rounds later; induction on rounds; C65 and C66 for networks; two spiders for strictness |
| C104 | `inDouble`, `embedBatch`, `wholeLoader`, `embedAll`, `srTwice`, `computeEmbeddings`, `magnitude`, `familyMagnitudes`, `magnitudeScript`, `validateMagnitude`, `testEmbeddings`, `selfIsoTest` (Model/Magnitude) | the dimension of a batch is the largest dimension of its complexes (C01) and that of a lifted graph is 2 iff it has a ring (C28); reading the dataset keeps dimensions (C36); predictions by C75/C78, the baseline as a SparseCIN (C92); induction over batches and seeds; case distinction on λ and μ for the cycle of at most five nodes |
| C105 | `houseComplex` … `molecularComplex`, `testingComplexes`, `molTestingComplexes`, `dropTwoFeatures`, `alternateLabels`, `dummyFactory`, `dummyMolFactory`, `dummyPaths`, `dummyProcess`, `dummyMolProcess`, `dummySplits`, `batchingTest`, `bareGraph`, `liftBare`, `embedAlone`, `permutationTest` (Model/Dummies) | the complexes are literals: a checker (`Complex.soundB`) proved sound once and for all complexes, then evaluated by the kernel with the feature map a variable; the datasets by C36, C37 and C89; the tests by C62, C63, C93 and induction over batches; the permutation test by C50, C51, C56 and the isomorphism of the ring complexes |
| C106 | `ResultKey`, `layerResults`, `poolResults`, `SparseNet.forwardPartial`, `EmbedNet.forwardPartial`, `stripFeatures`, `addResult`, `collectResults`, `catResults`, `compareResults`, `partialTest` (Model/Partial) | the prediction by cases over where an exception can be raised; the values by the run of the layers on batches (C62) cut after each layer; stripping a batch is batching stripped complexes, since cells without features are counted by their boundaries; the tests by induction over the dictionary and the batches. The embedding lemmas behind C63 are generalised from complexes of dimension at most 2 to batches of dimension at most 2. The test on PROTEINS, which also cuts the node features to one column, is not modelled |
| C107 | `faceOfColumn`, `facesFromB2` (Model/Faces) | a column has its entries at the three edges of its face, which are found again by their numbers; the corners are distinct since edges are not loops, and sorting their set gives the face; injectivity from the inverse |
| C108 | `rowArgmax`, `checkTags`, `validateDegreeAsTag`, `separateData`, `separateGivenSplit` (Model/TUTests) | by induction over the graphs: the places of the degrees are dealt out by numbers of nodes, and are too few for a graph exactly if its last node is isolated; the following graph has an edge and so a degree that is taken instead. The folds by the contract `TenFolds` of C77. `validate_constant_scalar_features` and `validate_get_fold_indices`, which asserts that different seeds give different folds, are statements about the downloaded datasets and are not modelled |
| C109 | `CINTrain.forward`, `aggregateTrain` (Model/CINTrain), inside `CINNet.forward`, `numSamples` | the messages of an adjacency, normalised together, are those of the level with frozen statistics (or one row raises); induction over the layers; the messages of a batch are as a multiset the sum over its cells of the messages they get, which a local isomorphism keeps; one message is excluded by symmetry of the adjacencies (C103's `View.FromFaces`). Dropout is left out as in C95 |
| C110 | `GINTrain.forward`, `runGINTrain`, `GINTrainNet.forward`, `RingGINTrain.forward` (Model/GINTrain), `numSamples` | the rows of a batch are those of its graphs, one after the other, so its statistics are those of its graphs; induction over the layers with the graphs that carry the rows so far; equal colours after n+1 rounds give equal colours after n rounds on the graphs with the new rows, and equal multisets of sums, hence equal statistics. Dropout is left out as in C95 |
| C111 | `clfCurve`, `apBinary`, `rocAuc`, `apMetric`, `ogbMetric` (Model/Ranking) | induction over the runs of equal scores in the sorted list: the sums over the curve are sums over the entries (for the area: over pairs of entries); the specification speaks of counts in the unsorted list only, whence invariance under permutations and increasing functions |
| C112 | `dropout`, `forwardDrop` of the models (Model/Dropout) | the weights of all masks factor over the entries, so the expectation of a masked and rescaled tensor is the tensor, and affine maps and sums commute with expectations; evaluation mode by rewriting; numberings by putting the last linear map behind C95, C109 and C110; a network and a vertex for the bias in front of `lin1` |
| C113 | the tests of mp/test_orientation.py (Model/OrientTests) | what is built from matrices that fit is read off C46, reversing edges is C46_change_of_orientation, a batch of one cochain is the cochain (C84); the layers commute with signs by induction over the layers (C22); multiplying by the diagonal matrix flips rows |
| C114 | `OrientNet.forwardDrop`, `EmbedGIN.forwardDrop` (Model/EdgeDropout) | the last lines are those of C112, so its lemmas apply to the network with the identity in place of `lin2`; batches and orientations by C84 for that network |
| C115 | `sameTest`, `featuresTest`, `upAttrTest`, `downAttrTest`, `boundaryIndexTest` (Model/BatchTests) | the rows of a batch are those of its complexes, by the view of a batch (C69); collecting from the batches of a division and collecting from the complexes is the same; the hand-made complexes by evaluation with the features as variables, the liftings by C28 |
| C116 | `baseConfig`, `baseMessages`, `pygPropagate`, `upMessagesOnly`, `isolatedTest`, `isolatedOnlyTest` (Model/MPTests), `propagate`, `DummyLevel.forward` | the columns that end in a cell are, up to order, the pairs of a coface and another face of it (C103), and `propagate` sums over columns (C12); the totals by counting incidences from both sides |
| C117 | `holeTest`, `checkAdjacencies`, `checkDirections`, `flowTest`, `oceanTest` (Model/FlowTests), `createHole`, `loadFlowDataset`, `loadOceanDataset` | C45 for the hole; the samples are described by C84, so the orientations are products of two signs, the labels are a block of zeros and a block of ones, and two sides of any triangle give an upper and a lower neighbour, without which `max()` fails |
| C118 | `plainLoader`, `shuffleTest`, `idxSplitTest`, `ringGenerationTest`, `ringConversionTest` (Model/LoaderTests), `Dataset.load`, `ringTransferDataset`, `convertWithRings` | the labels of a batch are those of its complexes (C06), so a loader delivers the labels in the order of the positions; C48 and C49 describe the graphs, and C28 with the ring of a cycle the complexes |
| C119 | `splitScore`, `sameScore`, `runExpTest` (Model/RunTest), `splitLoader`, `evalModel`, `runExp`, `dummyMolProcess` | the loader reads a permutation of the split (C75), a batch gives the predictions and labels of its complexes (C06, C62), so `eval` is the metric on permuted pairs; induction over the epochs shows that the curves have the same lengths, so the report finds the best epoch |
| C120 | `Peptides.checkVersion`, `Peptides.download`, `runSteps`, `Peptides.construct`, `Peptides.after` (Model/Download) | one assertion for each step of the download; a lemma on chains of assertions gives the assertion that holds where the program was killed; induction over the history; negative parts with invariants that every construction preserves |
| C121 | `Pool.step`, `Pool.run`, `retrieve`, `progressParallel`, `checkConverted`, `convertParallel`, `parallelTest` (Model/Parallel) | invariant of the machine: jobs and waiting tasks are the input in order, and a result is that of its task; induction over the events; the checks with the characterisation of C35; the comparison of a complex with itself is C102 |
| C122 | `SparseNet.call`, `CINNet.call`, `EmbedNet.call`, `RingNet.call`, `EdgeNet.call`, `RingNet.forwardPartial`, `callAgain` (Model/Reuse) | running layers `a ++ b` is running `a`, then `b` on what is left; induction on the number of calls; success from C16 for the deeper network |
| C123 | `getRings`, `ringComplex` (Model/Rings); `testingGraphs`, `simpConversionTest`, `cellConversionTest` (Model/ConversionTests) | the loop over longer sizes adds nothing when the library reports nothing; a longer cycle gives one more vertex set; the graph of a complex meets the hypotheses of C35 |
| C124 | `initReduce`, `EmbedInit.forward` (Model/Embed); `embedReduceTest`, `reduceFrom` (Model/LayerTests) | the number of rows is the largest column target plus one; the ranges of a valid boundary; the two assertions on the numbers of cells are the two conditions |
| C125 | `isInsideRectangle`, `flowRects` (Model/FlowRects); `loadFlowDataset` (Model/FlowData) | intervals that are apart in one coordinate; C84 with the path of a sample, whose ends differ, so that it has a first move, whose edge carries a value |
| C126 | `orientFlowTest` (Model/OrientFlow); `loadFlowDataset` (Model/FlowData), `OrientedLevel.forward`, `OrientNet.forward` (Model/Oriented) | every sample passes the checks of C117, which give the shape the layer needs; then the predictions for a batch (`OrientNet.forward_batch`, as for C84) and, for orientations, C84, whose hypothesis on the predictions is discharged. The width 4 of the output in the test is not modelled |
| C127 | `CochainBatch.fromList`, `CochainBatch.numCochains`, `batchedCochains` (Model/BatchCount) | induction over the loop that makes the pointers; C03 for the rows. The other accessors (`__getitem__` with an index, `to_cochain_list`, lines 460-480) only raise `NotImplementedError` and are not modelled |

## Findings

Places where the code does not do what one would expect. "Proved" names the theorem; the others were
noticed while modelling and are visible in the definitions or are outside the model.

* Batching drops explicitly given counts, so a batch can report too few cells (proved, `C07_explicit_count_lost`).
* A complex built with fewer dimensions than its cochains leaks shared ids of cells that are not in the
  batch (proved, `C02_truncated_complex_counterexample`).
* `_consolidate` overwrites contradicting counts instead of rejecting them (proved, `C08_recorded_counts_overwritten`).
* `set_xs` is not atomic (proved, `C10_set_xs_failure_keeps_prefix`); clearing features can change the number of
  cells (proved, `C10_clearing_features_may_change_count`).
* Labels of a batch are dropped as soon as one complex has none (proved, C06).
* The CIN++ layer never uses lower messages (proved, C19); switching them on is a `TypeError`.
* Pooling drops trailing complexes without vertices (proved, `C18_trailing_empty_complexes_are_dropped`).
* A cochain with an empty (not missing) lower index makes CIN raise a `TypeError`; `EdgeOrient` and `EdgeMPNN` without
  layers raise `UnboundLocalError`; `reset_parameters` of SparseCIN and of the embedding networks calls a method that
  `ModuleList` does not have.
* Lifting the empty graph fails (proved, `C28_empty_graph_fails`), so does ring lifting of a graph that has only
  self-loops (proved, `C28_ring_only_loops_fails`) and clique lifting with expansion dimension 0 of a graph with edges
  in a dataset (proved, `C35_expansion_zero_is_rejected`).
* A one-node graph with one label: the label is a graph label (C30).
* Ring conversion with `init_edges=False` fails for every graph with edges, so ZINC without edge features cannot be
  processed (proved, `C35_ring_conversion_rejects`).
* Stored complexes above the maximal dimension, with a dimension without cells, or with a label when the first complex
  has none cannot be read (proved, `C36_*_not_readable`); a dataset without any attribute has length 0 and all reads
  fail (proved, `C38_no_attributes_no_reads`); `copy` always fails (proved, C39).
* Folders do not depend on `include_down_adj` (ZINC, OGB, peptides), `degree_as_tag` (TU) or the sample counts (flow), so stale data
  are read (proved, `C40_*_collide`). The SR dataset changes `max_dim` while processing, so its folder differs from the one
  looked up later. The cluster test split ignores `include_down_adj`.
* Ring-transfer generation raises unless the number of classes divides the number of samples (proved, C49); flow
  generation with one sample is a `ZeroDivisionError` (proved, C60).
* The permutation check refuses the identity for more than one node, but accepts it for one node (proved, C50). A
  graph-level label vector with as many entries as nodes is permuted; repeated edges collapse (C51).
* The reported training score of the best epoch may be that of an earlier epoch (proved,
  `C53_training_score_may_be_stale`); a NaN in the validation curve is taken as the best epoch (proved,
  `C53_first_nan_is_best`); with 0 epochs the experiment raises (proved, `C53_no_epochs`).
* The isomorphism metric of fewer than two predictions is a `ZeroDivisionError` (proved, `C52_too_few`).
* Ring statistics of an empty split raise `IndexError` (proved, `C54_empty_split`).
* Reading a TU file fails for a graph without edges (proved, `C58_graph_without_edges`). With `degree_as_tag` the degree
  features of all later graphs are shifted when the last node of a graph is isolated (proved,
  `C58_isolated_last_node_shifts_degrees`). Node attributes in the file are thrown away.
* The mean loss reported by `eval` depends on the division into batches (proved, `C62_mean_loss_depends_on_batches`).
* `orientation` returns 0 and 1 where its comment says 1 and 2; cutting a hole that leaves no triangle raises
  `IndexError` (proved, `C45_rejected`).
* C72: `exp/run_ring_exp.py` trains `ring_sparse_cin` with three layers and the parser's default is `--use_coboundaries False`. With that default the prediction cannot depend on the label for n from 8 on, i.e. for all its ring sizes. The experiment needs `--use_coboundaries True`.
* C73: with `--early_stop` the folds of run_tu_exp may have different numbers of epochs; the curves then do not form a matrix and all ten trainings end in a TypeError (`C73_early_stopping_loses_the_summary`).
* C73: run_tu_exp always takes the largest average, also with `--minimize` (`C73_summary_ignores_minimize`).
* C75: `--tune` asks for the tuning splits but the loaders are made from `get_split`, which uses the ordinary ids; only the presence of a tuning test split has an effect (`C75_tuning_splits_are_ignored`).
* C77: `--fold` defaults to `None`, and both TU loaders then evaluate `None + 1`: running a TU dataset without a fold ends in a TypeError before any training.
* C78: `SRDataset.process` sets `self.max_dim` to the dimension that it finds and saves in the folder of that dimension. If no graph reaches the requested dimension, the folder of the request stays empty and every construction processes the dataset again (`C78_processed_again`).
* C78: `SRDataset.process` reads the raw files below the folder of the project whatever `root` was given (read in the source, not modelled).
* C79: run_sr_exp.py prints `np.std(perfs) / n` as standard error; the standard error of the mean divides by the square root of n (`C79_printed_error_too_small`).
* C80: `ZincDataset(use_edge_features=False)`, the default of the constructor, cannot be processed once a molecule has a bond (`C80_zinc_without_edge_features`): the conversion passes `init_edges=False` but then checks edge features that are `None`.
* C82: `EmbedGIN` with `embed_dim` different from `hidden` and two or more layers always fails (`C82_embed_gin`): the edge features keep `embed_dim` columns.
* C82: `SparseCIN` with `use_coboundaries` and `CIN0` fail on complexes with cells above `max_dim` unless all sizes agree (`C82_coboundaries_beyond_max_dim`, `C82_cin0_beyond_max_dim`): the features above `max_dim` are used but never updated. `EdgeCIN0(update_top_features=False)` with several layers has the same problem (`C82_edge_cin0_fixed_top`).
* C82: `Dummy` ignores its `max_dim` when it asks for the parameters, so with `max_dim` below 2 it fails on complexes of higher dimension (`C82_dummy`).
* C82: a wrong number of input columns can go unnoticed, a single column is broadcast (`C82_single_columns_are_broadcast`).
* C82: an unsupported `final_readout` is not noticed by the constructors but by the first `forward` (`C82_final_readout`).
* C83: a sparse matrix for one of upper and lower adjacency and a dense index for the other fails an assertion (`C83_mixed_adjacencies_rejected`): the sizes of a dense index are unknown at that point.
* C83: a sparse incidence, or a declared `boundary_size`, only works if there are as many boundary cells as cells (`C83_boundary_sizes_rejected`): `__collect__` compares the number of senders with the rows of `x`.
* C83: names without prefix (`x_j`) are never filled although the docstrings of `message_up` and `message_down` recommend them (`C83_names_without_prefix`).
* C83: a layer whose messages do not use any `_i` or `_j` argument returns fewer rows than there are cells (`C83_messages_without_features`).
* C83: with a sparse matrix the attributes passed as `up_attr` are replaced by the values of the matrix (`C83_sparse_adjacencies`).
* C84: `load_ocean_dataset` prints `labels[100]`, so it raises an `IndexError` for 1 to 100 paths and a `ValueError` for none (`C84_ocean_succeeds`).
* C84: a flow sample gets the class of the checkpoint it was sent to even when a random step takes it to the end region before, so that samples of both classes can have the same flow (`C84_classes_can_share_a_flow`).
* C84: the edge-flow datasets have no test split: `get_split("test")` fails an assertion (example in `Props/FlowDatasets`).
* C86: `gin_ring` on RING-TRANSFER is accepted by `validate_args` and always fails: `load_graph_dataset` passes `num_classes` to `load_ring_transfer_dataset`, whose parameter is called `classes` (proved, `C86_ring_transfer_graphs_never_start`).
* C86: `--tune` always fails, CLUSTER cannot be iterated (its complexes are kept outside `data` and `slices`, and `max_dim` is passed as `transform`), the graphs of the peptides cannot be loaded (proved, `C86_never_start`).
* C86: `--include_down_adj` does not reach IMDBBINARY, IMDBMULTI, REDDITBINARY and REDDITMULTI5K, so CIN++ and CIN0 run there without lower adjacencies (proved, `C86_lower_adjacencies_not_passed`).
* C86: `exp/run_ring_exp.py` passes `--fold`, which `validate_args` rejects for the ring datasets; it calls `main` without validating. `--iso_eps` has `type=int` with default 0.01, so no other fraction can be given (read in the source).
* C87: `reset_parameters` of `SparseCIN`, `CINpp`, `EmbedSparseCIN`, `EmbedCINpp`, `OGBEmbedSparseCIN`, `OGBEmbedCINpp` and `EmbedSparseCINNoRings` always raises `AttributeError`, because it calls the method on the `ModuleList` `lin1s`; that of `CIN0`, `EdgeCIN0` and `RingSparseCIN` raises as soon as there is a layer, because `CINConv`, `EdgeCINConv` and `SparseCINConv` have no such method (proved, `C87_sparse_cin_reset` and others).
* C87: `CINppCochainConv` does not extend `reset_parameters`, so `msg_down_nn`, `update_down_nn` and `eps3` keep their values (proved, `C87_pp_level_reset`).
* C87: the network of exp/scripts/cwn-zinc-small.sh has 130945 parameters and that of cin++-zinc-500k.sh 519617, as `total_params` counts them (computed in the examples).
* C88: in CIN++ the network `msg_down_nn` of every level is dead, since `use_down_msg=False` is inherited from `SparseCINCochainConv`; so are the networks on upper messages of the top dimension in SparseCIN and CIN++, and in the last layer all levels of dimensions that are not read out. They count as parameters (C87). The readme lists "remove redundant parameters from the models" as a todo.
* C89: constructing FlowDataset with fewer training samples than the files were made for puts training samples into the validation split, silently; with more samples, ids are out of range. `nodes` is the only argument of RingTransferDataset and RingLookupDataset that is part of the file names.
* C91: `run_sr_exp` with `--max_dim 2`, or with `--max_ring_size 3`, cannot separate any pair of strongly regular graphs of one family, whatever the weights; its own table of dimensions starts at 3, and the other SR scripts use rings of up to six nodes.
* C92: `Dummy.forward` (mp/models.py:451-454) calls `get_all_cochain_params()` without its own `max_dim`, so a `Dummy` with `max_dim = 1` raises an assertion error on every batch with 2-cells, where `CIN0` and `SparseCIN` ignore them, and a `Dummy` with `max_dim = 3` never updates or pools the cells of dimension 3.
* C94: `ClusterDataset.process` passes `include_down_adj=self.include_down_adj` (False by default) for the training and validation graphs but not for the test graphs (data/datasets/cluster.py:66-72), where the default of the conversion is True. The test complexes carry lower adjacencies that the training complexes do not have (`C94_cluster_splits_differ`); CIN reacts to them (`C94_cin_sees_the_switch`).
* C94: exp/parser.py (lines 147, 158) asserts `--include_down_adj` for embed_cin++ and ogb_embed_cin++, but their predictions are the same without lower adjacencies (`C94_embedding_networks_ignore_the_switch`): the part of the layer for lower messages always gets the zero message (C19).
* C95: a batch with a single cell in some dimension is skipped for every `--graph_norm` (exp/train_utils.py:45-50), though only `bn` raises on it; with `id` and `ln` the network computes the same as in evaluation mode (`C95_without_batch_normalisation`). Small batches whose molecules have exactly one ring in total are lost for training.
* C96: `eval` reports the mean of the losses of the batches, which weighs the last, smaller batch as much as the others, and batches with few labels as much as those with many (`C96_mean_loss_is_not_the_error`); only the printed `Val Loss` and the logs use it, since the scheduler is given the metric. One batch without labels makes it NaN (`C96_batch_without_labels`).
* C96: the loss skips missing labels but the metric `mae` raises on them (`C96_mae`).
* C97: the targets of the structural peptides are standardised with the rows of all splits, so training labels depend on the test data (`C97_labels_depend_on_other_splits`); a constant column would silently become a column of missing labels (`C97_constant_column`), which the loss skips and the metric `mae` does not.
* C99: the plot goes by the order of the families in the file and does not read their names (`C99_names_in_the_file_are_not_read`); both lists must be kept in the same order by hand, as they are (`C99_names`).
* C100: `__max_dim__` has no comment in the code; its entries are exactly the largest clique dimensions that the parameters allow (`C100_no_clique_is_cut_off`).
* C101: exp/prepare_tu_tuning.py does not pass `include_down_adj`, which data/data_loading.py:134-153 looks up in `kwargs` for PROTEINS, NCI1, NCI109, PTC and MUTAG, so the preparation raises `KeyError` for these (`C101_preparation_fails`).
* C101: template.yml advises to remove `max_ring_size` for simplicial networks; exp/prepare_tu_tuning.py:16 then raises `KeyError` (`C101_preparation_needs_ring_sizes`).
* C101: a grid cannot contain flags (`include_down_adj`, `dump_curves`, …): each value becomes a word after the flag, the command line is rejected and the process ends without an experiment (`C101_nothing_begun`). `null` as ring size ends a process at the first such combination.
* C102: `get_complex_rings` only collects the vertices of a ring, so the test on ZINC accepts complexes whose rings have edges missing from the boundary (`C102_ring_check_overlooks_edges`).
* C102: `compare_complexes` does not compare the labels of cells, and compares `num_cells_up` twice (data/helper_test.py:127-128, the second was meant for another attribute); with `include_down_adj=False` it does not look at lower adjacencies (`C102_compare_overlooks_labels`).
* C102: `test_zinc_splits_are_retained` would raise `KeyError` on a molecule without bonds (`C102_split_check_without_bonds`).
* C104: exp/evaluate_sr_cwn_emb_mag.py sets `max_ring_size = 6` inside `compute_embeddings` (line 39); files `sr-4.txt`, `sr-5.txt` and `sr-6.txt` have the same magnitudes (`C104_script`).
* C104: `batch.two_cells.x.double()` fails on a batch without two-cells (`C104_embeddings`); strongly regular graphs of degree at least 2 never give one with rings of up to six nodes (`C104_families`), but graphs such as a perfect matching do.
* C105: all ten complexes are consistent; no index in the 530 lines of tables is wrong (`C105_handmade_complexes`).
* C108: `validate_degree_as_tag` computes degrees without the number of nodes, like `load_data`, so it passes on a file whose last graph ends with an isolated node although that graph then has a row of features too few (`C108_missing_row_not_noticed`). `separate_data_given_split` accepts fold -1, contrary to its message.
* C109: the training loop only skips batches with fewer than two cells in some dimension, but CIN0 also normalises messages: on a complex with exactly one adjacency column it raises although it has two cells in each dimension (`C109_depends_on_the_batch_and_on_both_directions`). Lifted graphs never have this.
* C111 (`C111_columns_without_positives`): `Evaluator._ap` counts a column without positives as 0 whereas OGB's evaluator leaves it out, so the two average precisions of the code base differ on the same arrays; a missing label makes `_ap` raise while OGB leaves it out.
* C112 (`C112_in_front_of_lin1_is_biased`): `apply_dropout_before='lin1'` changes the expected prediction (3/2 instead of 1 in the example), since a nonlinearity follows.
* C112: any other value of `apply_dropout_before`, such as a misspelt one, silently means `'lin2'` in SparseCIN, CINpp and the embedding networks (mp/models.py:246), whereas EmbedGIN applies dropout for `'final_readout'` and `'lin2'` only (mp/molec_models.py:599).
* C113 (`C113_relu_test_fails`): `test_edge_orient_model_with_relu_is_not_orientation_equivariant_or_invariant` depends on the random weights: it fails when the last layer is dead (all activations 0, for example all its weights 0), and no seed is fixed in the test.
* C114 (`C114_unknown_position`): an unknown value of `apply_dropout_before` switches the dropout behind the pooling off in EmbedGIN, whereas it means `'lin2'` in the other networks (C112).
* C115 (`C115_features_test`): with `batch_max_dim = 3` the tests of data/test_batching.py still compare nothing beyond dimension 2, since `get_all_cochain_params` is called with its default `max_dim=2`.
* C115 (`C115_empty_upper_index`): a complex that stores an upper index without pairs, batched with one that has cells above but no upper index, makes `test_batching_returns_the_same_up_attr` fail: the batch passes an empty matrix and the complexes alone pass `None`.
* C117: the label count of `test_flow_util_dataset_loading` only works for even numbers of samples: with an odd number the second class has one sample more.
* C118: `test_data_loader_shuffling` can fail by chance although the loader is right: it compares lists of labels, which many permutations leave unchanged.
* C119: the assertions of `test_run_exp_on_dummym` cannot be used for a dataset without a test split: the scores are NaN then, and NaN is not equal to NaN.
* C120: `PeptidesFunctionalDataset.download` renames the table before the splits. A program killed in between leaves a root for which nothing is downloaded any more and the splits are never found (`C120_functional_stays_broken`); the structural dataset renames in the other order and recovers.
* C120: a download with a wrong hash is never removed, so the error comes again at every start until the file is deleted by hand (`C120_wrong_download_stays`).
* C120: the hash is written to `root/hash` but looked for in `root/peptides-…/hash`, a folder the program never creates. A new version is therefore never noticed, and if the folder exists for another reason the question comes at every start until 'y' deletes it (`C120_when_it_asks`).
* C121: the comment in data/utils.py:522-523 says that the checks verify the order of the complexes. They compare labels, node features and numbers of edges only, so graphs that agree in these (for instance a path and a star with constant features and equal labels) could be exchanged unnoticed (`C121_swap_is_not_detected`). joblib keeps the order, so nothing goes wrong.
* C122: the networks overwrite the features of their input (`data.set_xs(xs)`), so two calls with the same batch give different predictions without any error (examples with CIN0, CIN++, RingSparseCIN, EdgeCIN0 and an embedding network are in Props/Reuse). The training and evaluation loops call the network once for each batch, and the loaders build a new batch for each reading (C75), so the code is not affected.
* `InitReduceConv` returns fewer rows than there are cells if the last cells have no face, without an error (proved, `C124_reduction_on_complexes`; example `openHouseQ`).
* C125: the holes and the checkpoints share a corner, (0.2, 0.2) and (0.8, 0.8); a point exactly there is in both, and is removed (`C125_regions`).
* C127: `num_cochains` without a recorded number returns `ptr.numel() + 1`; `ptr` has one entry more than there are cochains, so `- 1` would be right (`C127_without_record`, `C127_never_right`). Batches made with `from_cochain_list` record the number, so the fallback is not reached there.
