{"id": "C01", "title": "Neighbour grid lists exactly the live objects of a cell", "statement": "After any sequence of add, remove, clear and resize calls that respects the documented preconditions (identifiers below the declared number, an identifier is added only while absent and removed at the position it was added at), listing a cell terminates, returns each identifier currently stored in that cell exactly once and nothing else, and no call reads or writes outside its arrays.", "quantifier": "all grid divisions, all numbers of objects, all finite histories of add/remove/clear/resize, all cells", "why_tests_cant": "The structure is an intrusive linked list shared by all cells; a wrong relink shows only after particular histories, and there are infinitely many histories.", "anchors": ["src/core/NeighbourGrid.cpp: NeighbourGrid::add, NeighbourGrid::remove, NeighbourGrid::clear, NeighbourGrid::resize, NeighbourGrid::getCell, NeighbourGrid::getCellVector", "src/core/NeighbourGrid.h: CellViewIterator"]}
{"id": "C02", "title": "Neighbour enumeration finds every object within range, in every periodic image", "statement": "For every point in the box and every stored object, each periodic image of the object that is closer to the point than the cell size is reported by the neighbouring-cell enumeration of that point together with exactly the translation vector that carries the object to that image; no (object, translation) combination is reported twice.", "quantifier": "all non-degenerate triclinic boxes, all cell sizes not larger than the box heights, all stored configurations, all query points", "why_tests_cant": "A missed image needs a pair straddling particular faces, edges or corners of a sheared box; the set of boxes and positions is continuous.", "anchors": ["src/core/NeighbourGrid.cpp: NeighbourGrid::positionToCellNo, NeighbourGrid::setupSizes, NeighbourGrid::getReflectedCellData, NeighbourGrid::fillNeighbouringCellsOffsets, NeighbourGrid::calculateTranslations, NeighbourGrid::getNeighbouringCells", "src/core/TriclinicBox.cpp: TriclinicBox::getHeights"]}
{"id": "C03", "title": "Half enumeration visits every unordered neighbour pair exactly once", "statement": "Going over all cells, over the pairs inside a cell and over the 'only positive' neighbours of the cell visits every unordered (pair, relative periodic image) that the full enumeration sees from both sides exactly once.", "quantifier": "all grid divisions down to one real cell per axis, all stored configurations", "why_tests_cant": "Double counting or omission appears only for small grids where opposite neighbours alias the same real cell; every size and wrap must be right.", "anchors": ["src/core/NeighbourGrid.cpp: NeighbourGrid::fillNeighbouringCellsOffsets", "src/core/Packing.cpp: Packing::countTotalOverlapsNGCellHelper, Packing::getTotalEnergyNGCellHelper"]}
{"id": "C04", "title": "Cell numbering is a bijection and every in-box point has a real cell", "statement": "Cell numbers and integer cell coordinates are in one-to-one correspondence, every point inside the box (up to the documented rounding tolerance) is assigned a cell that is one of the real cells, the neighbours of a real cell are always existing cells even though offsets are stored as wrapped unsigned integers, and points outside the tolerance are rejected.", "quantifier": "all grid divisions, all points, all real cells, all 27 neighbour directions", "why_tests_cant": "Index arithmetic relies on unsigned wrap-around and mixed-radix encoding; correctness must hold for all sizes.", "anchors": ["src/core/NeighbourGrid.cpp: NeighbourGrid::positionToCellNo, NeighbourGrid::cellNoToCoordinates, NeighbourGrid::coordinatesToCellNo, NeighbourGrid::realCoordinatesToCellNo, NeighbourGrid::cellNeighbourToCellNo, NeighbourGrid::isCellReflected, NeighbourGrid::getReflectedCellData"]}
{"id": "C05", "title": "Periodic correction brings every point into the box", "statement": "Adding the correction reported by periodic boundary conditions to any position yields a point inside the box (relative coordinates in [0,1)), the correction is a whole lattice vector, it is zero for points already inside, and two points differing by a lattice vector are corrected to the same point.", "quantifier": "all non-degenerate boxes and all positions", "why_tests_cant": "The domain is continuous and boundary values (exactly on a face, many boxes away) matter.", "anchors": ["src/core/PeriodicBoundaryConditions.cpp: PeriodicBoundaryConditions::getCorrection", "src/core/TriclinicBox.cpp: TriclinicBox::absoluteToRelative, TriclinicBox::relativeToAbsolute"]}
{"id": "C06", "title": "Periodic translation gives the minimum image", "statement": "For two in-box positions the translation reported by periodic boundary conditions is a lattice vector after which the relative separation is at most one half along every box axis; in a rectangular box no other periodic image is nearer; in any box every image closer than half of the smallest box height is the reported one.", "quantifier": "all non-degenerate boxes, all pairs of in-box positions, all lattice vectors", "why_tests_cant": "Continuous domain with ties at exactly one half.", "anchors": ["src/core/PeriodicBoundaryConditions.cpp: PeriodicBoundaryConditions::getTranslation"]}
{"id": "C07", "title": "Periodic squared distance is the squared length of the reported minimum image separation", "statement": "The squared distance reported by periodic boundary conditions for two positions equals the squared length of (second + translation - first), where translation is the one reported for the same two positions.", "quantifier": "all non-degenerate boxes, all pairs of in-box positions", "why_tests_cant": "It is true for every rectangular box and fails only for sheared boxes with particular sign patterns of the separation.", "anchors": ["src/core/PeriodicBoundaryConditions.cpp: PeriodicBoundaryConditions::getDistance2, PeriodicBoundaryConditions::getTranslation"]}
{"id": "C08", "title": "Overlap counting through the grid equals counting over all periodic images", "statement": "The number of overlaps of one molecule reported with the grid in use equals the number of (other interaction centre, lattice image) combinations that overlap it; whenever every box height is at least twice the interaction range this equals the count obtained without the grid by minimum images.", "quantifier": "all boxes, all configurations, all interactions which do not act beyond their declared range", "why_tests_cant": "Equality of an accelerated and a brute-force algorithm over all configurations.", "anchors": ["src/core/Packing.cpp: Packing::countParticleOverlaps, Packing::countInteractionCentreOverlapsWithNG, Packing::countOverlapsBetweenParticlesWithoutNG"]}
{"id": "C09", "title": "Single-molecule overlap counts add up to twice the total", "statement": "For every packing without walls the sum over molecules of the single-molecule overlap counts is twice the total overlap count; with walls the wall part is added once per molecule in both.", "quantifier": "all configurations, with and without the grid, with and without interaction centres, all symmetric interactions acting within their range", "why_tests_cant": "Needs all configurations and all wrap-around cases.", "anchors": ["src/core/Packing.cpp: Packing::countTotalOverlaps, Packing::countParticleOverlaps, Packing::countWallOverlaps"]}
{"id": "C10", "title": "Cached overlap number always equals a full recount", "statement": "While overlap counting is switched on, after every history of trial moves, acceptances, abandoned trials, volume moves, reverted volume moves and re-setups (not bringing more interaction centres and not dropping the hard part of the interaction: those are the subject of separate properties), the cached number of overlaps equals the number a full recount would give.", "quantifier": "all initial packings, all finite histories of operations, all interactions with a hard part", "why_tests_cant": "It is an incremental cache; drift appears only after some specific history.", "anchors": ["src/core/Packing.cpp: Packing::tryTranslation, Packing::tryRotation, Packing::tryMove, Packing::acceptTranslation, Packing::acceptRotation, Packing::acceptMove, Packing::tryScaling, Packing::revertScaling, Packing::toggleOverlapCounting, Packing::toggleWall, Packing::getCachedNumberOfOverlaps"]}
{"id": "C11", "title": "A trial that is not accepted leaves the packing unchanged", "statement": "Any number of trial translations, rotations and moves which are not accepted leaves positions, orientations, box, overlap counts and energies observable through the packing exactly as before.", "quantifier": "all packings, all trial moves, any number of them", "why_tests_cant": "Must hold for all states, including the hidden temporary storage used by the trials.", "anchors": ["src/core/Packing.cpp: Packing::tryTranslation, Packing::tryRotation, Packing::tryMove, Packing::prepareTempInteractionCentres"]}
{"id": "C12", "title": "Reverting a volume move restores the packing", "statement": "A trial volume move followed by a revert restores the box, all shapes, the grid content, interaction centres and the cached number of overlaps, whatever was done before.", "quantifier": "all packings, all new boxes, all earlier histories", "why_tests_cant": "Two grids are swapped back and forth; whether the right one is restored depends on the history.", "anchors": ["src/core/Packing.cpp: Packing::tryScaling, Packing::revertScaling"]}
{"id": "C13", "title": "Early-exit overlap test agrees with the full count under every thread schedule", "statement": "The early-exit overlap test is positive if and only if the full count is positive, whatever the order in which threads process cells and whatever stale value of the shared 'found' flag each of them observes.", "quantifier": "all packings, all thread schedules and flag visibility orders", "why_tests_cant": "The number of schedules is unbounded and relaxed memory effects are not reproducible in tests.", "anchors": ["src/core/Packing.cpp: Packing::countTotalOverlaps, Packing::countWallOverlaps, Packing::countParticleOverlaps"]}
{"id": "C14", "title": "Reported energy change equals the change of total energy", "statement": "If a trial move with no overlap contribution reports energy change dE and is accepted, the total energy after minus the total energy before equals dE.", "quantifier": "all packings, all moves, all symmetric pair potentials", "why_tests_cant": "The trial computes a local difference while the total is computed with the half enumeration; equality must hold for every configuration.", "anchors": ["src/core/Packing.cpp: Packing::calculateParticleEnergy, Packing::getTotalEnergy, Packing::getTotalEnergyNGCellHelper"]}
{"id": "C15", "title": "A non-overlapping hard-core packing never acquires an overlap", "statement": "Starting from a packing with no overlaps and with overlap counting off, no sequence of Monte Carlo moves accepted by the Metropolis rule produces an overlap.", "quantifier": "all initial non-overlapping packings, all sequences of moves and of random numbers", "why_tests_cant": "Histories and random numbers are unbounded; a single accepted bad move silently corrupts the simulation.", "anchors": ["src/core/Simulation.cpp: Simulation::tryMove, Simulation::tryScaling", "src/core/Packing.cpp: Packing::calculateMoveOverlapEnergy"]}
{"id": "C16", "title": "Molecules never leave the box", "statement": "After any history of accepted moves, volume moves and reverts every molecule's position lies inside the current box.", "quantifier": "all initial packings accepted by the constructor, all histories", "why_tests_cant": "Unbounded histories over a continuous domain.", "anchors": ["src/core/Shape.cpp: Shape::translate", "src/core/Packing.cpp: Packing::reset, Packing::tryScaling, Packing::areShapesWithinBox"]}
{"id": "C17", "title": "Stored interaction centres always match the shapes", "statement": "After any history of operations, each stored interaction centre equals the rotated model centre placed at its molecule's position and wrapped into the box, and the grid lists each of them in the cell of that position.", "quantifier": "all histories of trial moves, acceptances, volume moves and reverts", "why_tests_cant": "Derived data kept incrementally.", "anchors": ["src/core/Packing.cpp: Packing::recalculateAbsoluteInteractionCentres, Packing::acceptTempInteractionCentres, Packing::rotateTempInteractionCentres, Packing::addInteractionCentresToNeighbourGrid"]}
{"id": "C18", "title": "Skipping the overlap check on box expansion is safe", "statement": "Whenever the packing decides that an expanded box cannot create overlaps for a convex shape and skips the check, the expanded configuration indeed has no overlaps if the old one had none.", "quantifier": "all boxes and expansions, all non-overlapping configurations of convex shapes", "why_tests_cant": "A continuous family of boxes including sheared ones.", "anchors": ["src/core/Packing.cpp: Packing::isBoxUpscaled, Packing::tryScaling", "src/core/Interaction.h: Interaction::isConvex"]}
{"id": "C19", "title": "Wall overlaps are detected on both walls", "statement": "With walls on an axis, a molecule is reported as overlapping a wall exactly when it overlaps the nearer or the further wall of that axis.", "quantifier": "all boxes, all positions, all interactions", "why_tests_cant": "The further wall is examined only under a condition on the nearer one.", "anchors": ["src/core/Packing.cpp: Packing::countParticleWallOverlaps"]}
{"id": "C20", "title": "Orientation renormalisation restores rotation matrices and reports rejections", "statement": "Renormalising orientations replaces every orientation by one at least as close to orthogonal as before, never introduces overlaps unless allowed to, and returns the number of molecules left unfixed.", "quantifier": "all packings, all orientation matrices within the basin of the iteration, both settings of the allow-overlaps flag", "why_tests_cant": "Accumulated rounding drift takes arbitrary values.", "anchors": ["src/core/Packing.cpp: Packing::renormalizeOrientations, Packing::fixRotationMatrix, Packing::tryOrientationFix"]}
{"id": "C21", "title": "Active domains of different threads never interact", "statement": "Two molecules assigned to different active domains, wherever moves confined to those domains take them, stay separated along some divided axis by more than the ghost-layer width in every periodic image; each molecule is in at most one domain.", "quantifier": "all boxes, all domain divisions, all origins, all configurations, all in-domain moves", "why_tests_cant": "Race freedom over all positions and all schedules.", "anchors": ["src/core/DomainDecomposition.cpp: DomainDecomposition::prepareDomains, DomainDecomposition::populateDomains, DomainDecomposition::isRelativeVectorInActiveRegion, DomainDecomposition::getActiveDomainBounds", "src/core/ActiveDomain.cpp: ActiveDomain::isInside"]}
{"id": "C22", "title": "Threads of one parallel sweep never touch the same grid cell", "statement": "Grid cells written by a thread (cells containing points of its active domain) are disjoint from the cells read or written by any other thread.", "quantifier": "all grids, domain divisions, origins and schedules", "why_tests_cant": "A data race is schedule dependent and may never show up in tests.", "anchors": ["src/core/DomainDecomposition.cpp: DomainDecomposition::prepareDomains", "src/core/NeighbourGrid.cpp: NeighbourGrid::positionToCellNo"]}
{"id": "C23", "title": "Parallel sweep is equivalent to a sequential one", "statement": "Every interleaving of trial and accept steps of different threads in a domain-decomposed sweep ends in the packing and cached overlap number that some sequential order of the same accepted moves gives.", "quantifier": "all interleavings of all threads' steps, all packings", "why_tests_cant": "The number of interleavings is unbounded.", "anchors": ["src/core/Simulation.cpp: Simulation::performMovesWithDomainDivision, Simulation::tryMove", "src/core/Packing.cpp: Packing::tryMove, Packing::acceptMove"]}
{"id": "C24", "title": "Domain division degrades gracefully", "statement": "If a requested domain division is too fine for the current box the number of domains is reduced along the offending axis and the sweep is retried; this always terminates and performs the sweep exactly once.", "quantifier": "all requested divisions, all outcomes of the narrowness test", "why_tests_cant": "Retry loop over all box histories.", "anchors": ["src/core/Simulation.cpp: Simulation::performMoves", "src/core/DomainDecomposition.cpp: DomainDecomposition::prepareDomains"]}
{"id": "C25", "title": "Run length and snapshot schedule", "statement": "A run performs exactly the requested thermalisation and averaging cycles, numbers them consecutively after the cycle offset, records a snapshot exactly at the cycle numbers divisible by the snapshot period and collects averages exactly at the averaging cycles divisible by the averaging period; an interruption stops it after the current cycle.", "quantifier": "all run parameters and offsets, all interruption points", "why_tests_cant": "Off-by-one errors depend on divisibility of arbitrary run parameters and offsets.", "anchors": ["src/core/Simulation.cpp: Simulation::integrate, Simulation::relaxOverlaps, Simulation::performCycle"]}
{"id": "C26", "title": "Step sizes are adapted only during thermalisation and by the acceptance rate", "statement": "A move group's step size is changed only when its evaluation window is full, is increased only if the acceptance rate over the window is above 0.2, is decreased only if it is below 0.1, and is never changed during averaging.", "quantifier": "all sequences of accepted/rejected moves of all move groups, all phases", "why_tests_cant": "Detailed balance during averaging relies on it for every history.", "anchors": ["src/core/Simulation.cpp: Simulation::evaluateMoleculeMoveCounter, Simulation::evaluateScalingMoveCounter, Simulation::Counter"]}
{"id": "C27", "title": "Step sizes stay legal", "statement": "Whatever sequence of increase/decrease requests is made, step sizes of the samplers stay positive, rotation steps never exceed pi, and an increase that would pass the maximum is refused and reported as such; a decrease undoes a previous increase.", "quantifier": "all initial step sizes, all request sequences", "why_tests_cant": "Unbounded request histories.", "anchors": ["src/core/move_samplers/RotationSampler.cpp: RotationSampler::increaseStepSize, RotationSampler::decreaseStepSize", "src/core/move_samplers/TranslationSampler.cpp: TranslationSampler::increaseStepSize", "src/core/move_samplers/RototranslationSampler.cpp"]}
{"id": "C28", "title": "Move statistics add up", "statement": "Reported accepted and total move numbers equal the numbers of moves actually accepted and tried, per move group, irrespective of how they are spread over threads and of window resets.", "quantifier": "all histories, all distributions over threads", "why_tests_cant": "Histories and schedules are unbounded.", "anchors": ["src/core/Simulation.cpp: Simulation::accumulateCounters, Simulation::Counter::increment, Simulation::Counter::resetCurrent"]}
{"id": "C29", "title": "Environment combination overrides exactly what is specified", "statement": "Combining run environments replaces temperature, pressure, move samplers and box scaling exactly where the later one specifies them and keeps everything else; the result of a list of runs is the last specified value for each item, and an environment is complete exactly when everything needed is specified.", "quantifier": "all sequences of environments", "why_tests_cant": "Any sequence of partially specified environments is possible.", "anchors": ["src/core/Simulation.cpp: Simulation::Environment::combine, Simulation::Environment::isComplete, Simulation::Environment::setBoxScaler"]}
{"id": "C30", "title": "Trajectory files round-trip", "statement": "Every sequence of snapshots recorded to a RAMTRJ trajectory is played back unchanged, in order, with the right cycle numbers, by sequential reading and by random access; the header reports the right number of molecules, cycle step and total cycles.", "quantifier": "all numbers of molecules, all snapshots, all cycle steps, all lengths", "why_tests_cant": "Every byte offset for every size must be right.", "anchors": ["src/core/io/RamtrjIO.cpp: RamtrjIO::readHeader, RamtrjIO::writeHeader, RamtrjIO::streamoffForSnapshot", "src/core/io/RamtrjRecorder.cpp: RamtrjRecorder::recordSnapshot", "src/core/io/RamtrjPlayer.cpp: RamtrjPlayer::nextSnapshot, RamtrjPlayer::jumpToSnapshot"]}
{"id": "C31", "title": "Trajectory survives a crash at any byte", "statement": "If recording stops after any number of bytes (the header not finalised, the last snapshot cut), opening the file with auto-fix yields exactly the complete snapshots recorded before the crash with the right cycle numbers; opening without auto-fix never yields a snapshot which was not recorded.", "quantifier": "all trajectories, all crash points", "why_tests_cant": "Crash points at every byte of every file.", "anchors": ["src/core/io/RamtrjPlayer.cpp: RamtrjPlayer::AutoFix::tryFixing, RamtrjPlayer::RamtrjPlayer"]}
{"id": "C32", "title": "Appending to a trajectory continues it", "statement": "Closing a recorder and reopening the file in append mode, any number of times, gives the same file as one uninterrupted recording, and a mismatch of the number of molecules or of the cycle step is refused.", "quantifier": "all splits of all recordings into sessions", "why_tests_cant": "All histories of open/record/close.", "anchors": ["src/core/io/RamtrjRecorder.cpp: RamtrjRecorder::RamtrjRecorder, RamtrjRecorder::close0"]}
{"id": "C33", "title": "Truncated playback shows exactly a prefix", "statement": "A truncated player presents exactly the snapshots up to the given cycle of the underlying trajectory, for sequential, random and last-snapshot access.", "quantifier": "all trajectories, all truncation points, all access sequences", "why_tests_cant": "All access histories.", "anchors": ["src/core/io/TruncatedPlayer.cpp"]}
{"id": "C34", "title": "Snapshot files round-trip", "statement": "A RAMSNAP file written for a packing with auxiliary information is read back to the same box, shapes and auxiliary information.", "quantifier": "all packings, all auxiliary maps", "why_tests_cant": "All strings are possible in the auxiliary map.", "anchors": ["src/core/io/RamsnapWriter.cpp: RamsnapWriter::write", "src/core/io/RamsnapReader.cpp: RamsnapReader::read"]}
{"id": "C35", "title": "Reading lines backwards", "statement": "Reading lines from the end of a text yields exactly its lines in reverse order and leaves the stream in front of the line returned; consequently the last cycle number found in an observables or XYZ output is the one stored last, and a partially written last line is detected.", "quantifier": "all texts, all positions of line ends, all crash points", "why_tests_cant": "All texts including empty lines and missing final line end.", "anchors": ["src/utils/GetlineBackwards.cpp", "src/core/ObservablesCollector.cpp: ObservablesCollector::findOnTheFlyLastCycleNumber", "src/core/io/XYZRecorder.cpp: XYZRecorder::findLastCycleNumber"]}
{"id": "C36", "title": "Automatic resumption picks the right run and cycle", "statement": "With automatic resumption a simulation interrupted at any point starts from the first unfinished run, continues it from the stored number of cycles, or starts the next run from the last finished state, and refuses inconsistent sets of outputs; nothing is re-run or skipped.", "quantifier": "all numbers of runs, all progress states of the outputs", "why_tests_cant": "All crash points over all run lists.", "anchors": ["src/frontend/PackingLoader.cpp: PackingLoader::autoFindStartRunIndex, PackingLoader::loadPackingContinuation, PackingLoader::findStartRunIndex, PackingLoader::gatherRunData"]}
{"id": "C37", "title": "Resumed outputs are consistent", "statement": "A resumed run is allowed only if every output's last stored cycle is the last multiple of the snapshot period not exceeding the number of cycles in the restart snapshot; then outputs of the interrupted and resumed run together contain every snapshot cycle exactly once.", "quantifier": "all periods, all interruption points, all sets of outputs", "why_tests_cant": "All divisibility patterns and crash points.", "anchors": ["src/frontend/modes/CasinoMode.cpp: CasinoMode::OnTheFlyOutput, CasinoMode::OnTheFlyOutput::verifyLastCycleNumbers", "src/core/Simulation.cpp: Simulation::integrate"]}
{"id": "C38", "title": "Piecewise parameters select the right piece", "statement": "A piecewise dynamic parameter evaluates, at every cycle, exactly the piece whose range contains the cycle, with the cycle counted from the start of the piece; ill-formed piece lists are rejected.", "quantifier": "all piece lists, all cycles and total cycles", "why_tests_cant": "All boundaries between pieces.", "anchors": ["src/core/dynamic_parameters/PiecewiseDynamicParameter.cpp"]}
{"id": "C39", "title": "Shifted parameters follow the continued run", "statement": "A shifted dynamic parameter used with a cycle offset gives, at every cycle, the value the original parameter has at the cycle minus the shift, saturating at the ends of the range of representable cycles.", "quantifier": "all shifts, all cycles", "why_tests_cant": "Unsigned arithmetic with both signs of shift.", "anchors": ["src/core/dynamic_parameters/ShiftedDynamicParameter.cpp"]}
{"id": "C40", "title": "Lattice cells and molecules", "statement": "A lattice of given dimensions and unit cell produces exactly one copy of each unit-cell molecule per cell, its size equals the number of generated molecules, and cell indexing is a bijection rejecting out-of-range coordinates.", "quantifier": "all dimensions, all unit cells, all per-cell modifications", "why_tests_cant": "All sizes.", "anchors": ["src/core/lattice/Lattice.cpp: Lattice::getCellIndex, Lattice::size, Lattice::generateMolecules, Lattice::modifySpecificCellMolecules"]}
{"id": "C41", "title": "Lattice normalisation keeps the molecules", "statement": "Normalising a lattice moves every molecule into the cell that contains it, wrapping periodically: afterwards all relative positions are in [0,1) and the generated set of molecules is the same up to lattice vectors of the whole box.", "quantifier": "all lattices with arbitrary molecule positions", "why_tests_cant": "Continuous positions, all wraps.", "anchors": ["src/core/lattice/Lattice.cpp: Lattice::normalize, Lattice::isNormalized"]}
{"id": "C42", "title": "Lattice populators choose the requested molecules", "statement": "The serial populator keeps exactly the requested number of molecules, first along the given axis order; the random populator keeps a sub-multiset of the requested size for every shuffle.", "quantifier": "all lattices, all numbers of molecules, all axis orders, all shuffles", "why_tests_cant": "All random outcomes.", "anchors": ["src/core/lattice/SerialPopulator.cpp", "src/core/lattice/RandomPopulator.cpp"]}
{"id": "C43", "title": "Histogram bins partition the range", "statement": "Every value in the closed range of a histogram falls in exactly one bin whose bounds contain it, values outside are rejected, and multi-dimensional bin indexing is a bijection.", "quantifier": "all ranges, numbers of bins, dimensions and values", "why_tests_cant": "Continuous domain and all dimensions.", "anchors": ["src/core/observables/Histogram.h", "src/core/observables/Histogram.tpp: Histogram::calculateBinIndex, Histogram::flattenIndex, Histogram::reshapeIndex, Histogram::atPos"]}
{"id": "C44", "title": "Histogram building does not depend on the threads", "statement": "The dumped histogram depends only on the multiset of values added in each snapshot, not on which thread added which value or in which order, and equals the per-bin sum divided by the number of snapshots, or the per-bin average, depending on the mode.", "quantifier": "all sequences of values, all distributions over threads, all snapshots", "why_tests_cant": "All schedules.", "anchors": ["src/core/observables/HistogramBuilder.tpp: HistogramBuilder::add, HistogramBuilder::nextSnapshot, HistogramBuilder::dumpHistogram, HistogramBuilder::renormalizeBins"]}
{"id": "C45", "title": "Input expressions parse back", "statement": "Every PYON value printed in the canonical form is parsed back to the same value, with arbitrary whitespace and comments between tokens, and trailing garbage is rejected.", "quantifier": "all PYON values of any depth and size", "why_tests_cant": "Infinitely many nested expressions.", "anchors": ["src/pyon/Parser.cpp"]}
{"id": "C46", "title": "Class arguments bind as in Python", "statement": "Matching a class invocation binds every declared argument exactly once (positionally, by keyword, or to its default), passes extra positional/keyword arguments to the variadic ones, and rejects missing, excessive, duplicate and unknown ones.", "quantifier": "all argument specifications and all invocations", "why_tests_cant": "All combinations of positional/keyword/default/variadic arguments.", "anchors": ["src/pyon/MatcherDataclass.cpp: MatcherDataclass::match, MatcherDataclass::matchStandardArguments, MatcherDataclass::validateArguments"]}
{"id": "C47", "title": "Configuration parsing", "statement": "Key/value configuration text is parsed to exactly the fields written in it: comments and blank lines are ignored, sections prefix keys, continuation lines are joined, redefinitions are refused, and a sub-configuration contains exactly the fields under the given root.", "quantifier": "all configuration texts", "why_tests_cant": "All texts.", "anchors": ["src/utils/Config.cpp: Config::parse, Config::fetchSubconfig"]}
{"id": "C48", "title": "Version ordering", "statement": "Versions are totally ordered lexicographically by major, minor and patch number; printing and parsing a version round-trips; malformed version strings are refused.", "quantifier": "all versions and version strings", "why_tests_cant": "All triples of numbers and all strings.", "anchors": ["src/utils/Version.cpp", "src/utils/Version.h"]}
{"id": "C49", "title": "Text folding respects the width and the text", "statement": "Folded text contains the words of the input in order, no line is longer than the requested width, and every line starts with the requested margin.", "quantifier": "all texts, widths and margins", "why_tests_cant": "All texts.", "anchors": ["src/utils/Fold.cpp"]}
{"id": "C50", "title": "Splitting and joining strings", "statement": "Splitting a text on a delimiter and joining the pieces gives the text back; trimming removes exactly the leading and trailing white space; replacing all occurrences leaves none of the searched ones that were there.", "quantifier": "all strings and delimiters", "why_tests_cant": "All strings.", "anchors": ["src/utils/Utils.cpp: explode, implode, trim, replaceAll"]}
{"id": "C51", "title": "Molecule lists keep rotations proper", "statement": "Random rotation moves multiply the orientation by a proper rotation about the chosen axis, so orientations remain orthogonal with determinant one after any number of accepted moves.", "quantifier": "all axes, angles and histories", "why_tests_cant": "Continuous domain and unbounded histories.", "anchors": ["src/geometry/Matrix.tpp: Matrix::rotation", "src/core/Shape.cpp: Shape::rotate"]}
{"id": "C52", "title": "Volume scaling", "statement": "Box scalers return positive factors, the isotropic volume scaler changes the volume by exactly the sampled amount, anisotropic scaling combines directions as written, and a scaled box has volume equal to the old one times the product of the factors.", "quantifier": "all boxes, all random numbers, all scaling direction expressions", "why_tests_cant": "Continuous domain, all expressions.", "anchors": ["src/core/volume_scalers/*.cpp", "src/core/TriclinicBox.cpp: TriclinicBox::scale", "src/frontend/matchers (scaling direction parser)"]}
{"id": "C53", "title": "Segment distance is minimal", "statement": "The squared distance of two line segments is attained by a pair of points on them and no pair of points is nearer.", "quantifier": "all pairs of non-degenerate segments", "why_tests_cant": "Continuous domain with many degenerate branches.", "anchors": ["src/geometry/SegmentDistanceCalculator.h"]}
{"id": "C54", "title": "Orientation decompositions reproduce the orientation", "statement": "Both triples of Euler angles and the quaternion returned for a rotation matrix reproduce that matrix.", "quantifier": "all rotation matrices", "why_tests_cant": "Gimbal lock and sign branches are measure-zero sets.", "anchors": ["src/geometry/EulerAngles.cpp", "src/geometry/Quaternion.cpp"]}
{"id": "C55", "title": "Distance optimisation stops just outside contact", "statement": "The distance found for a pair of molecules along a direction is non-overlapping and within the requested tolerance of an overlapping one. Shrinking a whole packing axis by axis gives a packing without overlaps, with the same orientations and relative positions, in which each axis is within the tolerance of a factor with overlaps.", "quantifier": "all overlap predicates with a finite range", "why_tests_cant": "Bisection over arbitrary shapes.", "anchors": ["src/core/lattice/DistanceOptimizer.cpp"]}
{"id": "C56", "title": "Averages and errors", "statement": "The mean reported for a set of samples is their arithmetic mean and the error is the standard error of the mean.", "quantifier": "all non-empty sample lists", "why_tests_cant": "All lists of values.", "anchors": ["src/utils/Quantity.cpp: Quantity::calculateFromSamples"]}
{"id": "C57", "title": "On-the-fly observables follow the packing history", "statement": "After any history of snapshots the collector returns per-snapshot values in order, and averages over exactly the averaging snapshots; clearing forgets them all.", "quantifier": "all histories of snapshots, averaging and clears", "why_tests_cant": "All histories.", "anchors": ["src/core/ObservablesCollector.cpp: ObservablesCollector::addSnapshot, ObservablesCollector::addAveragingValues, ObservablesCollector::clear"]}
{"id": "C58", "title": "Observable behaviour does not depend on history", "statement": "Two packings with the same molecules, box, walls, counting switch and interaction report the same overlap numbers, energies, grid use, trial move and trial scaling results, however they got there.", "quantifier": "all pairs of histories of public operations ending in the same configuration", "why_tests_cant": "All pairs of histories.", "anchors": ["src/core/Packing.cpp: Packing::countTotalOverlaps, Packing::getTotalEnergy, Packing::tryMove, Packing::tryScaling"]}
{"id": "C59", "title": "A packing can be set up again with any number of molecules", "statement": "Setting an existing packing up again with a valid list of molecules, box and interaction is safe whatever the packing held before.", "quantifier": "all histories followed by a re-setup", "why_tests_cant": "Depends on the capacity of an internal structure made much earlier in the history.", "anchors": ["src/core/Packing.cpp: Packing::reset", "src/core/NeighbourGrid.cpp: NeighbourGrid::resize, NeighbourGrid::add"]}
{"id": "C60", "title": "Switching walls keeps the reported number of overlaps right", "statement": "After switching walls on or off while overlap counting is on, the reported number of overlaps equals a recount.", "quantifier": "all histories including wall switches at any time", "why_tests_cant": "All histories.", "anchors": ["src/core/Packing.cpp: Packing::toggleWalls, Packing::getCachedNumberOfOverlaps"]}
{"id": "C61", "title": "A re-setup forgets pending overlap differences", "statement": "After a packing is set up again, with any interaction, the reported number of overlaps stays equal to a recount through further accepted moves.", "quantifier": "all histories including re-setups with other interactions while overlap counting is on", "why_tests_cant": "All histories.", "anchors": ["src/core/Packing.cpp: Packing::reset, Packing::acceptMove"]}
{"id": "C62", "title": "Overlap relaxation ends with no overlaps", "statement": "An overlap relaxation which was not interrupted leaves a packing in which counting the overlaps afresh gives zero, and does nothing if there was none at the beginning.", "quantifier": "all initial packings, all sequences of random numbers", "why_tests_cant": "The loop is controlled by a cached number which all earlier moves have updated.", "anchors": ["src/core/Simulation.cpp: Simulation::relaxOverlaps", "src/core/Packing.cpp: Packing::getCachedNumberOfOverlaps"]}
{"id": "C63", "title": "A properly set up run completes", "statement": "A run with legal parameters, a complete environment and samplers suiting the number of molecules either completes or is refused because of overlaps, the latter exactly if there are overlaps; a relaxation which is asked to stop ends by then.", "quantifier": "all initial packings, all sequences of random numbers in which the search for a random axis ends, all interruptions", "why_tests_cant": "A crash may need a rare sequence of random numbers.", "anchors": ["src/core/Simulation.cpp: Simulation::integrate, Simulation::relaxOverlaps, Simulation::performMovesWithDomainDivision"]}
{"id": "C64", "title": "Moves and volume changes follow the Metropolis rule", "statement": "A trial move is accepted exactly if u <= exp(-dE/T), where dE is the energy after minus before, and u the random number drawn; a volume change is accepted exactly if u <= exp(N log(V'/V) - dE/T - p dV/T). Hard particles are treated the same, overlaps counting as infinite energy; shortcuts (rejecting before the energy is computed) give the same decisions.", "quantifier": "all packings, all interactions, all temperatures and pressures, all random numbers", "why_tests_cant": "Decisions depend on real numbers; wrong factors or signs give runs which look plausible but sample another distribution.", "anchors": ["src/core/Simulation.cpp: Simulation::tryMove, Simulation::tryScaling"]}
{"id": "C65", "title": "Proposed moves are symmetric", "statement": "For every move which can be proposed from a state with some random numbers, the reverse move can be proposed from the new state with random numbers of the same probability: translations by opposite vectors, rotations by opposite angles around the same axis; flips are their own inverses and keep the geometric centre. (Together with the Metropolis rule this is detailed balance.)", "quantifier": "all states, all step sizes, all random numbers", "why_tests_cant": "A bias of proposals is invisible in single moves.", "anchors": ["src/core/move_samplers/TranslationSampler.cpp", "src/core/move_samplers/RotationSampler.cpp", "src/core/move_samplers/RototranslationSampler.cpp", "src/core/move_samplers/FlipSampler.cpp"]}
{"id": "C66", "title": "Snapshots which were not completely written are refused", "statement": "A RAMSNAP file of which only the first part was written, because the program was stopped, is refused when it is read.", "quantifier": "all snapshots, all crash points", "why_tests_cant": "Crash points at every byte of every file.", "anchors": ["src/core/io/RamsnapReader.cpp: RamsnapReader::read", "src/core/io/RamsnapWriter.cpp: RamsnapWriter::write"]}
{"id": "C67", "title": "Moves of each kind are tried as often as asked for", "statement": "The kind of each tried move is chosen with probability proportional to the number of moves asked for by the kind: one for each molecule, or, for flips, one for every so many molecules as set. The molecule is chosen with equal probabilities among those which can be chosen. A sweep tries as many moves as all kinds ask for.", "quantifier": "all sets of kinds of moves, all numbers of molecules, all random numbers", "why_tests_cant": "A wrong boundary in a table of accumulated numbers shows only in frequencies.", "anchors": ["src/core/Simulation.cpp: Simulation::calculateMoveTypeAccumulations, Simulation::tryMove", "src/core/move_samplers/FlipSampler.cpp: getNumOfRequestedMoves"]}
{"id": "C68", "title": "Hard molecules overlap exactly if their bodies have a common point", "statement": "The overlap test of two hard molecules (spheres, spherocylinders and molecules made of them), in any positions and orientations and for any translation of the second one, is true exactly if the interiors of the two bodies have a common point.", "quantifier": "all sizes, positions, orientations and translations", "why_tests_cant": "Real positions and orientations: unit tests try a few configurations; rare ones matter, as one missed overlap freezes a wrong state in.", "anchors": ["src/core/shapes/SphereTraits.cpp", "src/core/shapes/PolysphereTraits.cpp", "src/core/shapes/SpherocylinderTraits.cpp", "src/core/shapes/PolyspherocylinderTraits.cpp", "src/core/Interaction.cpp: overlapBetweenShapes"]}
{"id": "C69", "title": "A hard molecule overlaps a wall exactly if a part of it is behind the wall", "statement": "The wall test of a hard molecule is true exactly if a point of the interior of its body is on the other side of the wall.", "quantifier": "all sizes, positions, orientations and walls with unit normals", "why_tests_cant": "Real positions, orientations and normals.", "anchors": ["src/core/shapes/SphereTraits.cpp: overlapWithWall", "src/core/shapes/PolysphereTraits.cpp: overlapWithWall", "src/core/shapes/SpherocylinderTraits.cpp: overlapWithWall", "src/core/shapes/PolyspherocylinderTraits.cpp: overlapWithWall", "src/core/Interaction.cpp: overlapWithWallForShape"]}
{"id": "C70", "title": "Ranges of hard shapes cover their overlaps", "statement": "Hard shapes meet what the packing requires of interactions: overlaps do not depend on the order of molecules; no overlap is reported beyond the interaction range, nor between molecules beyond the total interaction range, nor with walls further than half of it; with periodic boundary conditions the overlap is the one with the nearest image.", "quantifier": "all sizes, positions, orientations, boxes", "why_tests_cant": "The neighbour grid relies on it for all pairs; violations are silently missed overlaps.", "anchors": ["src/core/Interaction.h", "src/core/Interaction.cpp: getTotalRangeRadius", "src/core/shapes/SphereTraits.cpp", "src/core/shapes/PolysphereTraits.cpp", "src/core/shapes/SpherocylinderTraits.cpp", "src/core/shapes/PolyspherocylinderTraits.cpp"]}
{"id": "C71", "title": "The automatic volume is refused for overlapping parts", "statement": "The volume of a molecule made of spheres or spherocylinders computed automatically is the sum of volumes of its parts, and it is refused exactly if two parts have a common interior point.", "quantifier": "all lists of spheres and spherocylinders", "why_tests_cant": "All positions and sizes of parts; a wrong comparison shows only for some sizes.", "anchors": ["src/core/shapes/PolysphereTraits.cpp: PolysphereGeometry::calculateVolume", "src/core/shapes/PolyspherocylinderTraits.cpp: PolyspherocylinderGeometry::calculateVolume"]}
{"id": "C72", "title": "Normalising the mass centre only moves the molecule", "statement": "Normalising the mass centre of a molecule moves its spheres, geometric origin and named points by the same vector, so that masses proportional to the volume balance at the origin; doing it again changes nothing.", "quantifier": "all lists of spheres, all named points", "why_tests_cant": "All lists.", "anchors": ["src/core/shapes/PolysphereTraits.cpp: PolysphereGeometry::normalizeMassCentre, calculateMassCentre"]}
{"id": "C73", "title": "Soft interactions follow their formulas and vanish beyond the range", "statement": "The energy of two soft centres is the documented function of their distance (Lennard-Jones, repulsive Lennard-Jones, square-inverse core), it is the same in both orders, and it is zero beyond the interaction range.", "quantifier": "all parameters which are accepted, all distances greater than zero", "why_tests_cant": "A function of a real number; a wrong power or cut-off is seen only at some distances.", "anchors": ["src/core/interactions/CentralInteraction.h", "src/core/interactions/LennardJonesInteraction.cpp", "src/core/interactions/RepulsiveLennardJonesInteraction.cpp", "src/core/interactions/SquareInverseCoreInteraction.cpp"]}
{"id": "C74", "title": "Joined interactions act as both parts together", "statement": "Molecules with two joined interactions overlap (or overlap a wall) if they do so for one of them, the energy is the sum of energies, and the joined interaction meets what the packing requires if both parts do. It is declared convex only if its hard part is a single convex one.", "quantifier": "all pairs of interactions with the same centres, all molecules, all boundary conditions", "why_tests_cant": "Quantifies over all interactions.", "anchors": ["src/core/interactions/CompoundInteraction.cpp"]}
{"id": "C75", "title": "Building blocks of convex shapes describe the bodies they are named after", "statement": "The geometries from which generic convex shapes are built (points, segments, rectangles, cuboids, disks, balls, ellipses, ellipsoids, footballs, saucers) and their Minkowski sums, differences and convex hulls give, in every direction, a furthest point of the body meant; their centre is a point of the body; the body lies in the ball of the circumsphere radius; the ball of the insphere radius lies in the body.", "quantifier": "all sizes, all directions, all lists of bodies with all positions and orientations", "why_tests_cant": "Every direction of a continuum, and every nesting of operations; wrong radii turn off the exact test and are seen only at some distances.", "anchors": ["src/geometry/xenocollide/XCPrimitives.cpp", "src/geometry/xenocollide/XCPrimitives.h", "src/geometry/xenocollide/XCOperations.cpp"]}
{"id": "C76", "title": "Generic convex shapes overlap exactly if their bodies meet", "statement": "Whenever the collision test of two convex shapes ends, a negative answer means that a plane separates them (but for the tolerance), a positive one means that they have a common point (but for the tolerance); the wall test is positive exactly if a point of the shape is on the wall or behind; the answer is negative beyond the range.", "quantifier": "all convex bodies with correct support functions, all positions and orientations", "why_tests_cant": "An iterative search in a continuum of configurations; degenerate ones are hit rarely, but freeze a wrong state in.", "anchors": ["src/geometry/xenocollide/XenoCollide.h: XenoCollide::Intersect", "src/core/shapes/XenoCollideTraits.h: overlapBetween, overlapWithWall, getRangeRadius"]}
{"id": "C77", "title": "An expression for a convex shape is built into the body it means", "statement": "The geometry given by an expression of the input file, made of blocks with positions and orientations, Minkowski sums, differences and convex hulls nested in any way, is built exactly if the sizes and numbers of operands are allowed; the shape built gives in every direction the furthest point of the body which the expression means by the documentation, and its circumscribed and inscribed balls are right.", "quantifier": "all expressions, of any depth and number of operands; all sizes, positions, angles and directions", "why_tests_cant": "Nesting is not bounded; a swapped operand or transformation shows only for some trees.", "anchors": ["src/geometry/xenocollide/XCBodyBuilder.cpp", "src/frontend/matchers/GenericConvexGeometryMatcher.cpp"]}
{"id": "C78", "title": "Literals and collections match by their parts", "statement": "A matcher of an integer, float, string, boolean or None accepts exactly nodes of that kind (floats accept integers too) which satisfy all declared conditions. An array matches exactly when all of its elements do, and its value has the values of the elements in their order; a failure is reported for the first element which does not match. A dictionary matches exactly when the value at every key matches the first matcher declared for that key, independently of the order of entries.", "quantifier": "all matchers, nested to any depth, and all expressions", "why_tests_cant": "Arrays and dictionaries of any size, nested matchers and arbitrary conditions.", "anchors": ["src/pyon/MatcherArray.cpp: MatcherArray::match", "src/pyon/MatcherDictionary.cpp: MatcherDictionary::match, MatcherDictionary::matchKey", "src/pyon/MatcherNumeral.h: MatcherInt, MatcherFloat", "src/pyon/MatcherString.cpp: MatcherString::match"]}
{"id": "C79", "title": "An alternative takes its first matching option", "statement": "Matching m1 | m2 | ... gives the result of the first option (in the order written, however the options are grouped) which matches the expression, and fails exactly when all options fail.", "quantifier": "all alternatives and all expressions", "why_tests_cant": "All combinations of options, groupings and expressions.", "anchors": ["src/pyon/MatcherAlternative.cpp: MatcherAlternative::match, MatcherAlternative::collectVariants", "src/pyon/Matcher.h: operator|"]}
{"id": "C80", "title": "A simulation starts from the run and the packing which were asked for", "statement": "With --start-from the given run is started: from scratch if it is the first one, otherwise from the packing and the step sizes which the run before it ended with. With --continue it is continued from its own packing, step sizes and number of cycles: for the cycles of thermalization which are left; if none are left then with averaging, and without averaging the next run is started. Unknown names and missing files are refused.", "quantifier": "all lists of runs, options and sets of files", "why_tests_cant": "Combinations of options, kinds of runs, phases and files of earlier runs.", "anchors": ["src/frontend/PackingLoader.cpp: PackingLoader::loadPacking, PackingLoader::findStartRunIndex, PackingLoader::loadPackingContinuation", "src/frontend/modes/CasinoMode.cpp: options --start-from, --continue"]}
{"id": "C81", "title": "An input file means what its expressions say and can be run", "statement": "An input file is accepted exactly if its text is a PYON expression of the documented form: a rampack invocation with runs, moves, scalings, parameters, formats and files bound to their arguments, with documented defaults and within documented bounds. What is read is determined by the expression; moves, scalers and runs of an accepted file satisfy the conditions of the classes which they are passed to, and every run has a temperature, a pressure when needed, moves and a scaling.", "quantifier": "all texts, all kinds of runs and nesting of arguments, all numbers of runs", "why_tests_cant": "Texts, lists of runs and combinations of arguments are unbounded; a wrong default or a dropped argument is silent.", "anchors": ["src/frontend/matchers/RampackMatcher.cpp", "src/frontend/matchers/MoveSamplerMatcher.cpp", "src/frontend/matchers/BoxScalerMatcher.cpp", "src/frontend/RampackParameters.h"]}
{"id": "C82", "title": "A dynamic parameter of an input file has in each cycle the value which was written", "statement": "A temperature or pressure given as a number, const, linear, exp or inv expression, or piecewise with pieces beginning at given cycles, has in every cycle of the run the value of the expression (of the last piece which has begun).", "quantifier": "all expressions of parameters, all cycles and total numbers of cycles", "why_tests_cant": "Pieces are arbitrarily many and values are real functions of the cycle.", "anchors": ["src/frontend/matchers/DynamicParameterMatcher.cpp", "src/core/dynamic_parameters"]}
{"id": "C83", "title": "Each run is performed at the temperature and the pressure given for it", "statement": "Whichever run a simulation is started or continued from, it performs that run and those after it, until interrupted; in each cycle of each run the temperature and the pressure are the values, at the number of cycles performed before, of the parameters given last in the input up to that run (in its own arguments, those of earlier runs or those of the whole simulation); in the averaging phase they are constant, and an input in which they are not is refused.", "quantifier": "all lists of runs, parameters, starting points, numbers of cycles and moments of interruption", "why_tests_cant": "Environments accumulate over runs and restarts, and parameters change in time; a stale value biases averages without a sign.", "anchors": ["src/core/Simulation.cpp: Simulation::integrate, Simulation::relaxOverlaps, Simulation::updateThermodynamicParameters, Simulation::Environment::combine", "src/frontend/modes/CasinoMode.cpp: CasinoMode::recreateEnvironment, CasinoMode::verifyDynamicParameter"]}
{"id": "C84", "title": "Restarted simulations have the step sizes which were stored", "statement": "After a restart from a snapshot stored by an earlier run, the moves and the scaling of the box have the step sizes which they had when the snapshot was stored; limits of steps and other parameters are those of the input.", "quantifier": "all lists of moves, scalings and step sizes", "why_tests_cant": "Steps go through text metadata keyed by names of moves; combinations of moves are unbounded.", "anchors": ["src/frontend/modes/CasinoMode.cpp: CasinoMode::overwriteMoveStepSizes", "src/frontend/FileSnapshotWriter.cpp: FileSnapshotWriter::prepareAuxInfo", "src/core/move_samplers"]}
{"id": "C85", "title": "Axes and named points of shapes turn and move with them, and the flip axis reverses the primary axis", "statement": "Axes of a shape are perpendicular unit vectors which turn with the orientation, and named points move and turn with the shape. Named points are registered exactly if their names are different, and are found under their names. Whether a shape has an axis can be asked for all shapes. A half-turn about the flip axis reverses the primary axis of the shape, for every shape which has one.", "quantifier": "all axes, points, positions and orientations of shapes, all classes of shapes", "why_tests_cant": "Directions are a continuum, and the choice of a perpendicular axis depends on which component is the smallest one.", "anchors": ["src/core/ShapeGeometry.cpp", "src/core/ShapeGeometry.h", "src/core/shapes/PolysphereTraits.h: PolysphereGeometry", "src/core/shapes/PolyspherocylinderTraits.h: PolyspherocylinderGeometry", "src/frontend/matchers/ShapeMatcher.cpp: validate_axes"]}
{"id": "C86", "title": "Rotation of layers turns whole layers, alternately if asked", "statement": "Rotating layers of a regular lattice by an angle turns every molecule of every second layer by the angle and of the others by the opposite angle (or of all layers by the same one) and moves nothing; layers are numbered along the given axis through the whole lattice. Lattices which are not regular or not normalised, or have an odd number of layers when the rotation alternates, are handled as documented or refused.", "quantifier": "all unit cells whose layers can be told apart, lattice sizes, axes and angles", "why_tests_cant": "The number of layers in a cell and of cells is unbounded, and the cell has to be enlarged when the number of layers is odd.", "anchors": ["src/core/lattice/LayerWiseTransformer.cpp", "src/core/lattice/LayerRotationTransformer.cpp", "src/core/lattice/LatticeTraits.cpp: getLayerAssociation"]}
{"id": "C87", "title": "Random shifts of columns move whole columns along their axis", "statement": "The columnar transformation moves each column of molecules as a whole along the axis, by one displacement for a column; molecules are the same up to side vectors of the whole box, orientations are kept and relative coordinates are from [0, 1).", "quantifier": "all unit cells whose columns can be told apart, lattice sizes, axes and displacements", "why_tests_cant": "Columns go through many cells with periodic wrapping of relative coordinates; displacements are real numbers.", "anchors": ["src/core/lattice/ColumnarTransformer.cpp", "src/core/lattice/LatticeTraits.cpp: getColumnAssociation"]}
{"id": "C88", "title": "Random flips and rotations of molecules keep their centres and normalisation", "statement": "Random flips leave each molecule as it is or turn it upside down about its geometric origin, and random rotations turn each molecule about the chosen axis with its position kept; the lattice has the same box and cells, stays normalised if it was, and shapes without the required axis are refused.", "quantifier": "all lattices, shapes with axes, random numbers", "why_tests_cant": "Orientations and random numbers are a continuum; flips may move molecules to other cells.", "anchors": ["src/core/lattice/FlipRandomizingTransformer.cpp", "src/core/lattice/RotationRandomizingTransformer.cpp"]}
{"id": "C89", "title": "Unit cells of crystals have the nearest neighbours at the given distance", "statement": "The sc, bcc, fcc, hcp and hexagonal cells made for a ball diameter, with all axes, have 1, 2, 4, 4 and 2 molecules with relative coordinates from [0, 1), no two molecules of the infinite crystal are closer than the diameter and every one has a neighbour at exactly this distance.", "quantifier": "all diameters, axes and pairs of molecules of the infinite crystal", "why_tests_cant": "The crystal is infinite, so all periodic copies have to be considered, for every diameter.", "anchors": ["src/core/lattice/UnitCellFactory.cpp"]}
{"id": "C90", "title": "The nematic order parameter is the eigenvalue of the mean Q-tensor with the largest magnitude", "statement": "For all packings with particles with a primary axis the nematic order parameter is the eigenvalue of the greatest magnitude of the mean of 3/2 (a a^T) - 1/2 over axes, computed for every orientational distribution; it is from [-1/2, 1], it is 1 exactly when all axes are parallel, and it does not change when axes are reversed, particles are reordered or everything is rotated.", "quantifier": "all numbers of particles and all orientations", "why_tests_cant": "Orientations are a continuum and the formulas for roots have special cases.", "anchors": ["src/core/observables/NematicOrder.cpp: calculate, calculateEigenvalues"]}
{"id": "C91", "title": "The drift of rotation matrices measures how far orientations are from rotations", "statement": "The observable gives the mean, the least and the largest value over all particles of the squared norm of R^T R - 1, and the largest value is 0 exactly if all orientations are orthogonal matrices.", "quantifier": "all numbers of particles and all matrices", "why_tests_cant": "Matrices are a continuum and the number of particles is unbounded.", "anchors": ["src/core/observables/RotationMatrixDrift.cpp"]}
{"id": "C92", "title": "The smectic order parameter is the largest modulation over all wave vectors in the range", "statement": "For every packing the smectic order parameter is the largest of |1/N sum f_i exp(i k r_i)| over all wave vectors k with Miller indices in the given range, not all zero, of both signs; the indices and the wave vector which are printed are those for which the largest value is reached; it does not change when particles are moved by side vectors of the box, all of them are moved by the same vector, or they are reordered.", "quantifier": "all boxes, numbers of particles, positions, values of functions and ranges", "why_tests_cant": "Positions are a continuum and ranges are unbounded; only a half of wave vectors is visited by the code.", "anchors": ["src/core/observables/SmecticOrder.cpp", "src/core/observables/shape_functions/"]}
{"id": "C93", "title": "The bond order parameter uses nearest neighbours in layers and is between 0 and 1", "statement": "For every packing and Miller indices of layers, the bond order parameter of rank r is made of angles, in the plane of layers, of vectors to nearest images of r nearest neighbours of each particle among particles of the same layer; its local and global versions are as documented, both are between 0 and 1, the global one is not greater than the local one, they do not depend on the choice of the direction in the plane from which angles are measured, and they are 1 for perfect r-fold order; particles with too few neighbours are skipped; with indices (0, 0, 1) all particles are on one plane.", "quantifier": "all boxes, numbers of particles, positions, ranks and Miller indices", "why_tests_cant": "Neighbours are found by insertion into lists of bounded length for arbitrarily many particles in any order; positions are a continuum.", "anchors": ["src/core/observables/BondOrder.cpp", "src/core/observables/BondOrder.h", "docs/observables.md"]}
{"id": "C94", "title": "Pair correlations are averaged over all pairs of different particles, each taken once", "statement": "For every packing, each pair of particles is visited exactly once (with layerwise binning: each pair from one layer), with the distance vector to the nearest image, projected as documented for the chosen binning; values of S110, S220, S221 and of the angle between axes are in their documented ranges and do not depend on the order of particles; whatever the number of threads and the order of visits, what is printed for a bin is the average of the correlation function over all pairs of different particles from all snapshots whose distance is in the bin.", "quantifier": "all boxes, numbers of particles, binnings, correlation functions, numbers of threads, schedules and numbers of snapshots", "why_tests_cant": "The number of pairs and schedules is unbounded; positions are a continuum.", "anchors": ["src/core/observables/correlation/PairAveragedCorrelation.cpp", "src/core/observables/correlation/RadialEnumerator.cpp", "src/core/observables/correlation/LayerwiseRadialEnumerator.cpp", "src/core/observables/correlation/LinearEnumerator.cpp", "src/core/observables/correlation/S221Correlation.h"]}
{"id": "C95", "title": "The pair density correlation compares numbers of pairs with a uniform system", "statement": "For every sequence of snapshots, whatever the number of threads and the order of visits, what is printed for a bin is the average over snapshots of the density of particles in the shell of the bin around a particle divided by the density in the packing, so that it is 1 for a uniform system, for radial, layerwise and linear binning.", "quantifier": "all boxes, numbers of particles, ranges and numbers of bins, binnings, numbers of threads, schedules and numbers of snapshots", "why_tests_cant": "The number of pairs, bins, snapshots and schedules is unbounded; positions are a continuum.", "anchors": ["src/core/observables/correlation/PairDensityCorrelation.cpp", "src/core/observables/correlation/RadialEnumerator.cpp", "src/core/observables/correlation/LayerwiseRadialEnumerator.cpp", "src/core/observables/correlation/LinearEnumerator.cpp", "docs/observables.md"]}
{"id": "C96", "title": "The probability evolution is the conditional probability of the correlation function with the documented normalisation", "statement": "For every sequence of snapshots, whatever the number of threads and the order of visits, values printed for a bin of distance and value are: the number of pairs of different particles in the bin averaged over snapshots (avg_count), this number divided by the number of pairs at the same distance with values in the range and by the width of the bin, so that the integral over values is 1 for each distance with pairs (pdf), or scaled so that the average over bins at this distance is 1 (unit); bins at distances without pairs are 0, and counts are numbers of pairs from all snapshots.", "quantifier": "all boxes, numbers of particles, ranges and numbers of bins, binnings, correlation functions, normalisations, numbers of threads, schedules and numbers of snapshots", "why_tests_cant": "The number of pairs, bins, snapshots and schedules is unbounded.", "anchors": ["src/core/observables/correlation/ProbabilityEvolution.cpp", "src/core/observables/correlation/ProbabilityEvolution.h", "docs/observables.md"]}
{"id": "C97", "title": "The density histogram counts particles in bins of relative positions, with the drift of the tracked origin cancelled out", "statement": "A histogram is created exactly if the number of bins in some direction is greater than 1. For every sequence of snapshots, whatever the number of threads and the order of processing, the value printed for a bin is the average over snapshots of the number of particles in it (avg_count) or of this number divided by its average over bins (unit), where particles are moved back by the displacement of the origin since the first snapshot and wrapped by periodic boundary conditions; each particle is in exactly one bin, the unit normalisation gives 1 on average, moving the system together with its origin changes nothing, and clearing gives back the initial state. Scaling the box, with the same relative positions, changes nothing.", "quantifier": "all boxes, numbers of particles, numbers of bins, origins, numbers of threads, schedules and numbers of snapshots", "why_tests_cant": "The number of particles, bins, snapshots and schedules is unbounded.", "anchors": ["src/core/observables/DensityHistogram.cpp", "src/core/observables/DensityHistogram.h", "docs/observables.md"]}
{"id": "C98", "title": "Functions averaged in bins are averages over particles which are in the bin", "statement": "For every sequence of snapshots, whatever the number of threads and the order of processing, the value printed for a bin is the average of the shape function over all particles which are in the bin in all snapshots, with the drift of the tracked origin cancelled out.", "quantifier": "all boxes, numbers of particles, numbers of bins, origins, shape functions, numbers of threads, schedules and numbers of snapshots", "why_tests_cant": "The number of particles, bins, snapshots and schedules is unbounded, and wrong schedules are rare.", "anchors": ["src/core/observables/BinAveragedFunction.cpp", "src/core/observables/BinAveragedFunction.h", "src/core/observables/ShapeFunction.h", "docs/observables.md"]}
{"id": "C99", "title": "The Fourier tracker reports the maximum of the modulation which is nearest to the previous one, so that it follows the drift of the system", "statement": "A tracker is created exactly if some wavenumber is not zero and the function has a single value. In each snapshot the relative origin is a global maximum (within twice the threshold of amplitudes 1e-8) of the first-order Fourier expansion of the shape function with given wavenumbers, which is the sum of standing waves with maxima in particles; the reported origin is this point of the box. If waves are not negligible it is exactly a maximum, and among all maxima a periodic image of it is the nearest to the previous origin, or to zero at the beginning and after a reset. When the whole system moves between snapshots by less than half of the distance between maxima, the origin moves by the total displacement along tracked axes, up to periodic images.", "quantifier": "all boxes, numbers of particles, positions, values of the function, wavenumbers, previous origins and sequences of snapshots", "why_tests_cant": "The number of particles and snapshots is unbounded, positions are real numbers, and the maximum is over all points of the box.", "anchors": ["src/core/observables/trackers/FourierTracker.cpp", "src/core/observables/trackers/FourierTracker.h", "src/core/observables/GoldstoneTracker.h", "docs/observables.md"]}
{"id": "C100", "title": "Observables made of single numbers follow their documented formulas", "statement": "For every packing which can be reached: the number density is N/V, the packing fraction is N times the volume of a particle over V, the compressibility factor Z satisfies pV = ZNT and is at least 1, box dimensions are distances of opposite faces, E is the average interaction energy of a single particle with the rest of the system and varE is its variance, whether the neighbour grid is used or not; the temperature and the pressure are those of the run.", "quantifier": "all reachable packings, interactions, temperatures, pressures and volumes of shapes", "why_tests_cant": "The number of particles and of histories of the packing is unbounded, and positions are real numbers.", "anchors": ["src/core/observables/NumberDensity.h", "src/core/observables/BoxDimensions.h", "src/core/observables/PackingFraction.h", "src/core/observables/CompressibilityFactor.h", "src/core/observables/EnergyPerParticle.h", "src/core/observables/EnergyFluctuationsPerParticle.h", "src/core/observables/Temperature.h", "src/core/observables/Pressure.h", "src/core/Packing.cpp: getNumberDensity, getPackingFraction, getParticleEnergyFluctuations", "docs/observables.md"]}
{"id": "C101", "title": "Optimising a cell compresses it to contact and adds the spacing to its heights", "statement": "For every lattice: optimize_cell is refused, or it multiplies the sides of the cell by positive numbers, keeping directions of sides, relative positions of molecules in every cell, orientations and numbers of cells; each height of the new cell is the height of the compressed one plus the requested spacing; the compressed cell has no overlaps, and with any of its sides shorter by 2*10^-12, when its turn comes in the given axis order, there would be some.", "quantifier": "all lattices which can be made with the API, interactions, axis orders and spacings", "why_tests_cant": "Cells, shapes and spacings are arbitrary, and the compressed cell is found by three bisections over real numbers, each of which depends on overlaps of all molecules.", "anchors": ["src/core/lattice/CellOptimizationTransformer.cpp", "src/core/lattice/DistanceOptimizer.cpp: shrinkPacking", "docs/initial-arrangement.md: optimize_cell"]}
{"id": "C102", "title": "Optimising layers moves each one towards the previous one, then compresses the cell, and adds the spacing", "statement": "For every lattice: optimize_layers is refused for one of the listed reasons, or it keeps orientations, the order of molecules in the cell, their coordinates along the other two axes, numbers of cells and the regularity of the lattice; each layer, in the order along the axis, is moved towards the previous one until there would be overlaps (or the initial place of the previous one is reached); then the side is multiplied by the smallest factor found by bisection, with distances between layers unchanged; finally the layer number l gets l spacings more, the height grows by the number of layers times the spacing, and the molecules are centred and normalised.", "quantifier": "all lattices which can be made with the API and have clearly separated layers, interactions, axes and spacings", "why_tests_cant": "Cells, shapes and spacings are arbitrary, and the result comes from one bisection over real numbers for each layer and one for the cell, each of which depends on overlaps of all molecules.", "anchors": ["src/core/lattice/LayerWiseCellOptimizationTransformer.cpp", "src/core/lattice/LatticeTraits.cpp: getLayerAssociation", "docs/initial-arrangement.md: optimize_layers"]}
{"id": "C103", "title": "Molecules made of spheres in a row have the requested shape, and their volume is the volume of the body", "statement": "For all parameters: k-mers, polysphere wedges and lollipops are built exactly if the parameters are in the documented range; they have the requested number of spheres, radii and penetrations of neighbours, both ends are equally far from the geometric origin, named points and the axis are at the documented places, and the volume, from which densities and packing fractions follow, is the Lebesgue measure of the union of the balls, also when they overlap. The same for the automatic volume of any polysphere made of balls without common points.", "quantifier": "all numbers of spheres, radii, distances and penetrations", "why_tests_cant": "A volume of a union of overlapping balls cannot be computed by a test, other than by sampling; numbers of spheres and all sizes are unbounded.", "anchors": ["src/core/shapes/KMerTraits.cpp", "src/core/shapes/PolysphereWedgeTraits.cpp", "src/core/shapes/PolysphereLollipopTraits.cpp", "src/geometry/VolumeCalculator.cpp", "src/core/shapes/PolysphereTraits.cpp: PolysphereGeometry"]}
{"id": "C104", "title": "Wedges are the bodies they are documented to be, also when divided, and volumes of convex molecules are exact", "statement": "For all parameters: a smooth wedge is the convex hull of two balls and a polyhedral wedge is the convex hull of two rectangles; the geometries given to the collision test have right furthest points and right circumscribed and inscribed radii; a wedge divided into any number of parts, with the parts at the interaction centres, is exactly the same body; volumes given for wedges, balls and spherocylinders are Lebesgue measures of the bodies, in every position and orientation; named points are at the documented places. Wedges are built exactly for the documented parameters.", "quantifier": "all radii, lengths and sides, all numbers of parts, all positions and orientations", "why_tests_cant": "Every direction and point of a continuum, and an unbounded number of parts; a volume cannot be computed by a test other than by sampling.", "anchors": ["src/core/shapes/SmoothWedgeTraits.cpp", "src/core/shapes/SmoothWedgeTraits.h", "src/core/shapes/PolyhedralWedgeTraits.cpp", "src/core/shapes/PolyhedralWedgeTraits.h", "src/core/shapes/SpherocylinderTraits.cpp: getVolume", "src/core/shapes/SphereTraits.cpp: getVolume"]}
{"id": "C105", "title": "A packing in which no overlaps are counted has a packing fraction of at most one", "statement": "In every state which a packing of balls, or of molecules made of balls, can reach: if counting all overlaps gives zero, then the packing fraction recorded by the observable is between zero and one.", "quantifier": "all histories of a packing, all boxes, all numbers, positions and orientations of molecules, all radii and arrangements of balls in a molecule", "why_tests_cant": "Holds for every reachable arrangement of an unbounded number of molecules, and rests on the geometry of infinitely many periodic images; a test can only compare numbers for arrangements whose volume is already known.", "anchors": ["src/core/Packing.cpp: countTotalOverlaps, getPackingFraction", "src/core/observables/PackingFraction.h", "src/core/shapes/SphereTraits.cpp", "src/core/shapes/PolysphereTraits.cpp"]}
{"id": "C106", "title": "Molecules on an arc are the documented bodies, and their volume is exact", "statement": "polysphere_banana and polyspherocylinder_banana are built exactly for the documented parameters. Spheres, or ends of rods, are on the arc in equal angles; subdivisions of rods do not change the body; named points and axes are the documented ones; and the reported volume, which enters packing fractions, is the volume of the body, with all common parts counted once.", "quantifier": "all radii, angles and numbers of spheres, segments and subdivisions", "why_tests_cant": "An exact volume is a statement on infinitely many points for a continuum of parameters and any number of segments; a test compares numbers for a few parameters, which are computed by the same formula.", "anchors": ["src/core/shapes/PolysphereBananaTraits.cpp: generateGeometry, calculateVolume", "src/core/shapes/PolyspherocylinderBananaTraits.cpp: generateGeometry, calculateVolume, isArcOpen, isArcOriginOutside", "src/frontend/matchers/ShapeMatcher.cpp: polysphere_banana, polyspherocylinder_banana"]}
{"id": "C107", "title": "Lattices given in the input have the documented box and molecules", "statement": "For every unit cell, given either by sides of a cell and numbers of cells, or by a box and numbers of cells, or by a box and a number of molecules: the box of the packing is the documented one, each cell has the documented molecules at the documented relative positions, numbers of cells chosen automatically give place to all molecules, partial filling takes as many of the molecules as requested, none twice, with the automatic order of axes from the axis with the fewest cells, and the requested number of molecules is obtained.", "quantifier": "all unit cells including custom ones, boxes, numbers of cells and molecules, ways of filling, shuffles and transformations", "why_tests_cant": "The numbers of cells depend on all three heights of the box through roots and rounding, and the loop which enlarges them ends for some boxes only; tests try a few boxes.", "anchors": ["src/frontend/LatticeDimensionsOptimizer.cpp: optimize", "src/frontend/matchers/LatticeMatcher.cpp: create_manual_lattice, create_automatic_lattice, create_automatic_cell_dim_lattice, LatticePackingFactory, AutoAxisOrderSerialPopulator, FullPopulator, create_cell_dim"]}
{"id": "C108", "title": "The trajectory mode replays exactly the recorded snapshots", "statement": "For every recorded trajectory and all options together (truncating, storing in other files, observables, averages, the last snapshot): files stored are played back as the snapshots left by truncation; observables are calculated once for each of them, in order, with its cycle number and the temperature and pressure which the simulation had in that cycle; averages are taken over exactly the snapshots from the given cycle on; the last one is written with its cycle number; other options are refused.", "quantifier": "all trajectories and all players which present them, all combinations of options, temperatures and pressures, also of interrupted simulations", "why_tests_cant": "Each part leaves the player in another state, in which the next part starts; tests run the parts one by one on one trajectory.", "anchors": ["src/frontend/modes/TrajectoryMode.cpp: TrajectoryMode::main", "src/core/io/RamtrjPlayer.cpp", "src/core/io/TruncatedPlayer.cpp", "src/core/dynamic_parameters/PiecewiseDynamicParameter.cpp: getValueForCycle"]}
{"id": "C109", "title": "Meshes of molecules show the molecules", "statement": "For every convex body and every number of subdivisions the mesh lies in the body and reaches as far as the body does in all directions of sampling, which are unit vectors with the axes of coordinates among them; normals of triangles point outwards. A program which reads the OBJ file or the Wolfram output for a molecule made of many such parts sees exactly the triangles of meshes of all parts, rotated and moved to the position of the molecule. The volume of a mesh does not change when it is moved or rotated.", "quantifier": "all convex bodies given by support functions, numbers of subdivisions, numbers and positions of interaction centres, positions and orientations of molecules", "why_tests_cant": "Points and indices depend on all subdivisions and on all previous parts of the molecule; tests compare the output for one body with one number of subdivisions.", "anchors": ["src/geometry/xenocollide/XCPrinter.cpp: buildPolyhedron0, generateSpherePoints", "src/geometry/Polyhedron.cpp: storeWavefrontObj, storeWolframGraphicsComplex, getVolume, transformed", "src/core/shapes/XCObjShapePrinter.cpp: print", "src/core/shapes/XCWolframShapePrinter.cpp: print", "src/core/shapes/XenoCollideTraits.h: createPrinter, getPrinter"]}
{"id": "C110", "title": "Observables given as expressions are the ones which the documentation describes", "statement": "A text is accepted as an observable, or as a bulk observable, exactly if it is an expression described in the documentation: with the name, the arguments in their order or by name, their defaults and their ranges. The observable, its parameters and its scope are then the ones which the expression says. No expression means two different things, and no observable has an empty scope.", "quantifier": "all texts, and all ways of rounding decimal numbers", "why_tests_cant": "There are infinitely many expressions with nested functions, trackers and binnings, positional and keyword arguments; tests check some dozens of them.", "anchors": ["src/frontend/matchers/ObservablesMatcher.cpp: matchObservable, matchBulkObservable", "src/core/observables/SmecticOrder.cpp: SmecticOrder::SmecticOrder", "src/core/observables/BondOrder.cpp: BondOrder::BondOrder", "src/core/observables/correlation/LayerwiseRadialEnumerator.cpp: LayerwiseRadialEnumerator", "docs/observables.md"]}
{"id": "C111", "title": "Convex bodies given as expressions are the ones which the documentation describes", "statement": "A text is accepted as the geometry of a generic convex shape exactly if it is an expression described in the documentation, nested to any depth: blocks with their sizes, positions and rotations, in order or by name with defaults, sums and hulls of at least two bodies and differences. What is accepted is built without an exception. No expression means two bodies, and each body which the documentation allows has an expression.", "quantifier": "all texts, all depths of nesting, and all ways of rounding decimal numbers", "why_tests_cant": "Expressions are nested without a bound and there are infinitely many; tests check one or two for each block.", "anchors": ["src/frontend/matchers/GenericConvexGeometryMatcher.cpp: GenericConvexGeometryMatcher::match", "src/pyon/RecursiveMatcher.cpp: RecursiveMatcher::match", "src/geometry/xenocollide/XCBodyBuilder.cpp: XCBodyBuilder", "docs/shapes.md: Class generic_convex"]}
{"id": "C112", "title": "Shapes given as expressions are the ones which the documentation describes, and all of them can be made", "statement": "A text is accepted as a shape exactly if it is an expression of one of the twelve classes described in the documentation, with arguments in order or by name with defaults, which satisfies the conditions on sizes, axes and points. The class of the shape and the arguments of its constructor are those which are written, with axes normalised, chains of points turned into rods and lists of spheres joined. No expression means two shapes. The constructor throws for no expression which satisfies the conditions. The secondary axis needs the primary one and is perpendicular to it; names of points given by the user are free.", "quantifier": "all texts, all numbers and lists of parts of any length, all ways of rounding decimal numbers", "why_tests_cant": "There are infinitely many expressions and conditions are split between the matcher and constructors; tests check one or two expressions for each class.", "anchors": ["src/frontend/matchers/ShapeMatcher.cpp: ShapeMatcher::match, ShapeMatcher::create", "src/core/shapes/PolysphereTraits.cpp: PolysphereTraits::PolysphereGeometry", "src/core/shapes/PolyspherocylinderTraits.cpp: PolyspherocylinderTraits::PolyspherocylinderGeometry", "docs/shapes.md"]}
{"id": "C113", "title": "Initial arrangements given as expressions are the ones which the documentation describes", "statement": "A text is accepted as an initial arrangement exactly if it is an expression described in the documentation: a packing loaded from a file, or a lattice with the unit cell and named arguments of one of the three forms, with lists of transformations of any length and with partial filling. The arrangement is the one which is written: kind of cell and molecules with their orientations, dimensions of the cell or of the box, numbers of cells or of shapes, transformations in order with angles in radians, and the populator. No expression means two arrangements, although the three forms have the same name and share arguments. Lattices which are accepted are made with cells, molecules and boxes of the documentation. Every class of the documentation is accepted, and so is any number of shapes in any box.", "quantifier": "all texts, all custom cells and lists of transformations of any length, all orders of named arguments, and all ways of rounding decimal numbers", "why_tests_cant": "There are infinitely many expressions, and the three forms are told apart only by sets of named arguments; tests check a few expressions for each form.", "anchors": ["src/frontend/matchers/LatticeMatcher.cpp: LatticeMatcher::create", "src/frontend/matchers/ArrangementMatcher.cpp: ArrangementMatcher::create", "docs/initial-arrangement.md"]}
{"id": "C114", "title": "A whole input file, with everything in it, is accepted exactly if it is what the documentation describes", "statement": "A text is accepted as an input file exactly if it is an expression described in the documentation, in which the initial arrangement, the shape, helper shapes, observables and bulk observables are all expressions described in the documentation, however deeply they are nested. Then the parameters of the simulation are those which are written, and no expression means two sets of parameters. Shapes of accepted inputs are not refused later by their constructors, and each observable is computed in at least one scope.", "quantifier": "all texts, all numbers of threads, all shapes, arrangements and observables which can be written, lists of runs, moves and observables of any length, and all ways of rounding decimal numbers", "why_tests_cant": "Parts of the input are read by different matchers which hand untyped values to one another; tests try each matcher apart and a few whole files.", "anchors": ["src/frontend/matchers/RampackMatcher.cpp: RampackMatcher::create, RampackMatcher::match", "src/frontend/matchers/ShapeMatcher.cpp: ShapeMatcher::create", "src/frontend/matchers/ArrangementMatcher.cpp: ArrangementMatcher::create", "src/frontend/matchers/ObservablesMatcher.cpp", "src/pyon/Any.h: Any::as"]}
{"id": "C115", "title": "Wolfram snapshots show the molecules of the packing in both styles", "statement": "A snapshot for Wolfram Mathematica of spheres, polyspheres, spherocylinders or polyspherocylinders is an expression of the documented form. In the style standard it is a list with one drawing for each molecule, in the order of the packing, which shows the body of the molecule. In the style affine_transform it has one drawing and a list of orientations and positions in the order of the packing, and the drawing which is rotated and then moved shows the body of the molecule.", "quantifier": "all packings of any number of molecules with any positions and orientations, all numbers of spheres and spherocylinders in a molecule, and all ways of writing decimal numbers", "why_tests_cant": "What is shown is a set of points for each of infinitely many configurations, and both styles must agree for all of them; tests of a writer compare a text for one packing.", "anchors": ["src/core/io/WolframWriter.cpp: WolframWriter::write, storeStandard, storeAffineTransform", "src/core/shapes/SphereTraits.cpp: WolframPrinter::print", "src/core/shapes/PolysphereTraits.cpp: WolframPrinter::print, SphereData::toWolfram", "src/core/shapes/SpherocylinderTraits.cpp: WolframPrinter::print", "src/core/shapes/PolyspherocylinderTraits.cpp: WolframPrinter::print, SpherocylinderData::toWolfram"]}
{"id": "C116", "title": "Formats of shape previews are accepted exactly as documented", "statement": "The argument of --output of the shape-preview mode is accepted exactly if it is wolfram(filename, **kwargs) or obj(filename, **kwargs) with a text which is not empty as the name of the file, texts as other arguments, and a positive number of subdivisions in the text mesh_divisions, if it is given; 3 is used otherwise. Then the file, the format and the number of subdivisions are those which are written.", "quantifier": "all texts given as the option, with any number of named arguments and any texts as their values", "why_tests_cant": "There are infinitely many expressions and texts for numbers; tests try a few correct ones.", "anchors": ["src/frontend/matchers/FileShapePrinterMatcher.cpp: FileShapePrinterMatcher::create, FileShapePrinterMatcher::match", "src/core/shapes/XenoCollideTraits.h: XenoCollideTraits::getPrinter", "src/core/shapes/SphereTraits.cpp: SphereTraits::getPrinter", "src/core/shapes/PolysphereTraits.cpp: PolysphereTraits::getPrinter"]}
{"id": "C117", "title": "Orthorhombic arrangements put molecules in the middle of the box with layers oriented as asked", "statement": "An orthorhombic arrangement succeeds exactly if all numbers are positive, the lattice has a margin in the box in all directions and antipolar layers are even in number. Then there are as many molecules as asked for (or as many as cells, if there are fewer), cells are filled in order of indices, the lattice is in the middle of the box, all molecules are inside it and any two are at least one cell apart in some direction. In odd layers molecules are turned by 180 degrees around the polar axis for antipolar layers, and tilted to the other side for anticlinic ones. If only the box is given, the lattice is the smallest cubic number of cells which has a place for all molecules, cells fill the box and molecules are in the middle of them.", "quantifier": "all numbers of molecules and cells, all dimensions of cells and of the box, all axes, tilt angles, polarizations and clinicities", "why_tests_cant": "The number of molecules and dimensions are not bounded; tests check two or three small arrangements.", "anchors": ["src/core/lattice/OrthorhombicArrangingModel.cpp: OrthorhombicArrangingModel::arrange", "src/core/lattice/OrthorhombicArrangingModel.h: OrthorhombicArrangingModel", "src/frontend/legacy/ArrangementFactory.cpp: ArrangementFactory::arrangePacking"]}
{"id": "C118", "title": "Orthorhombic arrangements of legacy input files leave no molecule out", "statement": "An orthorhombic arrangement of a legacy input file without the optimisation of spacing succeeds exactly if there is at least one molecule, the lattice has a place for all of them, dimensions are positive, antipolar layers are even in number, and the box is given or made of cells of given dimensions (if both are given, the lattice fits in the box). Then the box is the one given, or numbers of cells times their dimensions if it is automatic; the number of molecules is exactly the one asked for and all of them are inside the box. With the optimisation of spacing, the box is made of cells whose dimensions are the minimal distances which have been found with the spacing added, and it succeeds exactly if moreover the spacing is positive.", "quantifier": "all numbers of molecules and cells, all dimensions of cells, given and automatic boxes, all four formats of sizes, all positive minimal distances, all polarizations and clinicities", "why_tests_cant": "Combinations of numbers and dimensions are not bounded, and tests check one example of each format.", "anchors": ["src/frontend/legacy/ArrangementFactory.cpp: parse_box_dimensions, parse_default, parse_spacing, parse_explicit_sizes, arrange_orthorhombic_shapes, ArrangementFactory::arrangePacking", "src/core/lattice/OrthorhombicArrangingModel.cpp: OrthorhombicArrangingModel::arrange"]}
