{"id": "C01", "title": "Inversion mixing always finishes and leaves the tank stratified", "statement": "Whatever temperatures the nodes hold, removing temperature inversions terminates (in at most as many sweeps as there are nodes) and afterwards every node is at least as warm as the node below it. This must hold no matter how the running averages are rounded, because the loop has no iteration limit.", "quantifier": "every number of nodes, every temperature profile, every way the mean of a run of nodes may be rounded", "why_tests_cant": "the loop is unbounded and data dependent; tests sample a few profiles and one rounding", "anchors": ["src/Tank.cc:374-416 Tank::mixInversions"]}
{"id": "C02", "title": "Inversion mixing conserves heat and never overshoots", "statement": "Removing inversions leaves the tank's heat content unchanged, creates no temperature outside the range already present, leaves an already stratified tank untouched, and is idempotent. With inversion mixing disabled it changes nothing.", "quantifier": "every number of nodes and every temperature profile", "why_tests_cant": "an energy leak for one profile shape would be missed by sampled profiles", "anchors": ["src/Tank.cc:374-416 Tank::mixInversions"]}
{"id": "C03", "title": "A hot-water draw balances energy exactly", "statement": "After a draw from a tank without heat exchanger, the drop in tank heat content equals the heat carried out at the reported outlet temperature minus the heat brought in by the two inlets, for any draw volume (including many tank volumes), any split between the inlets and any inlet heights.", "quantifier": "every tank size, node count, profile, draw volume, inlet split, inlet temperatures and inlet heights", "why_tests_cant": "the sweep moves water between all nodes in place; sign or order slips show only for particular heights/splits", "anchors": ["src/Tank.cc:418-530 Tank::updateNodes (draw)"]}
{"id": "C04", "title": "A draw creates no temperature outside the range of the waters involved", "statement": "After a draw without heat exchanger, every node temperature and the reported outlet temperature lie between the coldest and the hottest of: initial node temperatures, first inlet temperature, second inlet temperature.", "quantifier": "every tank, profile, draw volume, inlet split, inlet temperature and inlet height", "why_tests_cant": "range violations can occur for rare inlet-height/volume combinations only", "anchors": ["src/Tank.cc:418-530 Tank::updateNodes (draw)"]}
{"id": "C05", "title": "Heat-exchanger draws balance energy and stay in range", "statement": "For a tank that only exchanges heat with the water line, the heat gained by the line equals the heat lost by the tank, and the delivered temperature lies between the inlet temperature and the extreme node temperatures.", "quantifier": "every tank, profile, draw volume and effectiveness between 0 and 1", "why_tests_cant": "the recursion through nodes compounds per-node effects for arbitrary node counts", "anchors": ["src/Tank.cc:464-476 Tank::updateNodes (heat exchanger)"]}
{"id": "C06", "title": "Standby loss and conduction are accounted for exactly", "statement": "Over the standby/conduction part of a time step, tank heat content falls by exactly the reported standby loss; conduction between nodes moves heat but neither creates nor destroys it; a tank at ambient temperature loses nothing.", "quantifier": "every tank, node count (including one node), profile, ambient temperature, step length", "why_tests_cant": "each node is touched by several overlapping updates; errors cancel on symmetric test profiles", "anchors": ["src/Tank.cc:532-599 Tank::updateNodes (losses, conduction)"]}
{"id": "C07", "title": "Conduction never creates a new temperature extreme", "statement": "Conduction between nodes alone never produces a temperature above the hottest or below the coldest node, whenever the step is accepted by the stability check.", "quantifier": "every tank, node count, profile and step length accepted by the stability check", "why_tests_cant": "needs all profiles and all step sizes up to the exact acceptance threshold", "anchors": ["src/Tank.cc:566-592 Tank::updateNodes (conduction)"]}
{"id": "C08", "title": "The complete node update balances energy", "statement": "For a whole tank update (draw, bottom mixing, losses, conduction, inversion mixing): final heat content = initial heat content + heat in with inlet water - heat out with outlet water - reported standby losses.", "quantifier": "every tank, profile, draw, inlet configuration, ambient temperature and step length for which the update is accepted", "why_tests_cant": "interaction of all sub-steps over unbounded node counts", "anchors": ["src/Tank.cc:418-601 Tank::updateNodes"]}
{"id": "C09", "title": "Impossible draws and unstable conduction are rejected", "statement": "A tank update reports an error if, and only if, the second inlet is asked to supply more than the whole (positive) draw or the conduction stability condition fails; otherwise it completes.", "quantifier": "every tank state and argument combination", "why_tests_cant": "acceptance must be characterised exactly, not sampled", "anchors": ["src/Tank.cc:418-601 Tank::updateNodes"]}
{"id": "C10", "title": "Adding heat above a node accounts for every kilojoule", "statement": "Adding an amount of heat to a stratified tank at and above a node terminates and returns an unused amount between zero and the amount offered; tank heat content rises by exactly the difference.", "quantifier": "every stratified tank, node, non-negative amount of heat and temperature cap", "why_tests_cant": "loop over runs of equal-temperature nodes with unbounded node count", "anchors": ["src/Tank.cc:655-715 Tank::addHeatAboveNode"]}
{"id": "C11", "title": "Adding heat never exceeds the cap and disturbs nothing else", "statement": "Adding heat above a node never raises a node beyond the temperature cap, never cools any node, leaves nodes below untouched and keeps the tank stratified; heat is only returned unused when every node at or above the given one has reached the cap.", "quantifier": "every stratified tank, node, amount of heat, cap", "why_tests_cant": "a boundary slip at the top node or at the cap shows only for particular profiles", "anchors": ["src/Tank.cc:655-715 Tank::addHeatAboveNode"]}
{"id": "C12", "title": "Extra heat added above a node is all stored", "statement": "Extra (uncapped) heat added at a node of a stratified tank ends up entirely in the tank: heat content rises by exactly the amount added.", "quantifier": "every stratified tank, node and non-negative amount of heat", "why_tests_cant": "unbounded node count and heat", "anchors": ["src/Tank.cc:717-771 Tank::addExtraHeatAboveNode"]}
{"id": "C13", "title": "A heat source's distributed heating conserves energy", "statement": "When a heat source spreads its output over the nodes, tank heat content rises by exactly the offered energy minus the energy reported as left over, and the left-over lies between zero and the offered energy.", "quantifier": "every stratified tank, every non-negative distribution summing to one, every non-negative capacity and cap temperature", "why_tests_cant": "withheld/carried energy is threaded through all nodes with a nonlinear weighting", "anchors": ["src/HPWHHeatSource.cc:348-374 HeatSource::heat"]}
{"id": "C14", "title": "Resistance element runtime and energy are consistent", "statement": "A resistance element run for a period reports a runtime between zero and that period, input energy equal to output energy, and output energy equal to the heat that entered the tank.", "quantifier": "every stratified tank, every positive power, every positive period, every heating distribution", "why_tests_cant": "must hold for every tank state including full tanks", "anchors": ["src/Resistance.cc:84-101 Resistance::addHeat"]}
{"id": "C15", "title": "Wrapped/submerged condenser runtime and energy are consistent", "statement": "A condenser in or around the tank, run for a period, reports a runtime between zero and that period and an output energy equal to the heat that entered the tank, whatever performance map it uses (with positive output).", "quantifier": "every stratified tank, performance function, ambient temperature, period", "why_tests_cant": "performance maps are arbitrary functions", "anchors": ["src/Condenser.cc:882-910 Condenser::addHeat"]}
{"id": "C16", "title": "External single-pass heating balances energy", "statement": "Single-pass external heating reports a runtime between zero and the period, and the reported output power times the runtime equals the heat that entered the tank, over any number of passes, any inlet/outlet nodes and any shut-off logics (with non-negative shut-off fractions and positive output).", "quantifier": "every tank, performance function, shut-off logic, inlet/outlet node, period", "why_tests_cant": "number of passes is unbounded and data dependent", "anchors": ["src/Condenser.cc:1048-1164 Condenser::addHeatExternal"]}
{"id": "C17", "title": "External multi-pass heating balances energy and finishes", "statement": "Multi-pass external heating terminates, reports a runtime between zero and the period, and the reported output power times the runtime equals the heat that entered the tank.", "quantifier": "every tank, performance function with positive output, flow rate, inlet/outlet node, period", "why_tests_cant": "number of passes is unbounded and data dependent", "anchors": ["src/Condenser.cc:1175-1277 Condenser::addHeatExternalMP"]}
{"id": "C18", "title": "External single-pass heating always finishes", "statement": "A single-pass external heating call always returns.", "quantifier": "every tank, performance function, set of shut-off logics", "why_tests_cant": "non-termination cannot be observed by a finite test", "anchors": ["src/Condenser.cc:1056-1147 Condenser::addHeatExternal", "src/HPWHHeatingLogic.cc:226-292 TempBasedHeatingLogic::getFractToMeetComparisonExternal"]}
{"id": "C19", "title": "Resampling a profile computes exact bin averages", "statement": "Resampling a profile of any length onto any number of nodes gives each node the average of the source profile (read as a piecewise-constant function of relative height) over that node's height range; the overall average is preserved and no value leaves the source range.", "quantifier": "every pair of positive sizes and every source profile", "why_tests_cant": "the code has a general branch and a copy branch chosen by size arithmetic; only some size pairs reach each", "anchors": ["src/HPWHUtils.cc:15-88 HPWH::getResampledValue, HPWH::resample", "src/Tank.cc:186-196 Tank::setNodeTs_C"]}
{"id": "C20", "title": "Extensive resampling preserves the total", "statement": "Resampling an extensive quantity (such as a heat distribution) onto any number of nodes preserves its sum.", "quantifier": "every pair of positive sizes and every source vector", "why_tests_cant": "size arithmetic branches", "anchors": ["src/HPWHUtils.cc:91-97 HPWH::resampleExtensive"]}
{"id": "C21", "title": "Simulated thermocouples report in-range, consistent temperatures", "statement": "The k-th of n simulated thermocouples is the average of the tank over the k-th n-th of its height; all of them lie in the tank's temperature range and their mean is the tank mean; indices outside 1..n are rejected.", "quantifier": "every tank, every n and k", "why_tests_cant": "depends on arithmetic between n and the node count", "anchors": ["src/Tank.cc:325-335 Tank::getNthSimTcouple", "src/HPWHUtils.cc:15-50 HPWH::getResampledValue"]}
{"id": "C22", "title": "Weighted tank temperatures are true weighted averages", "statement": "The average tank temperature under a height-weight distribution equals the weight-averaged node temperature (weights integrated over each node's height range), lies between the coldest and hottest node, and the evaluation never reads past the end of the distribution.", "quantifier": "every tank, every valid distribution (any number of points, any scale)", "why_tests_cant": "two cursors advance at different rates; needs all relative grid alignments", "anchors": ["src/Tank.cc:257-317 Tank::getAverageNodeT_C", "src/HPWH.hh:366-491 WeightedDistribution"]}
{"id": "C23", "title": "Heat-distribution weights over tank slices add up", "statement": "The share of a height-weight distribution lying between two heights is additive over adjacent slices, non-negative, and totals one over the whole tank; so the per-node heating distribution is non-negative and sums to one.", "quantifier": "every valid distribution, every slicing, every node count", "why_tests_cant": "cursor logic over arbitrary break points", "anchors": ["src/HPWH.hh:440-480 WeightedDistribution::normalizedWeight", "src/HPWHHeatSource.cc:378-396 HeatSource::calcHeatDist"]}
{"id": "C24", "title": "Normalising a distribution gives unit sum and finishes", "statement": "Normalising a non-negative, not-all-zero distribution of at most 10000 entries terminates and yields non-negative entries, each zero or at least the tolerance, with sum one, zero entries staying zero.", "quantifier": "every non-negative vector up to the stated length", "why_tests_cant": "renormalisation loop is data dependent", "anchors": ["src/HPWHUtils.cc:108-147 HPWH::normalize"]}
{"id": "C25", "title": "Wrapped-condenser heat distribution is a probability distribution", "statement": "The temperature-dependent heat distribution of a wrapped condenser is non-negative, sums to one, and puts no heat below the lowest coil node or in nodes at/above setpoint whenever some coil node is below setpoint.", "quantifier": "every profile, setpoint, shrinkage, lowest node", "why_tests_cant": "arbitrary profiles and sizes", "anchors": ["src/HPWHUtils.cc:185-220 HPWH::calcThermalDist", "src/HPWHUtils.cc:150-159 HPWH::findLowestNode"]}
{"id": "C26", "title": "Defrost derating only reduces, within known bounds, and only in its window", "statement": "The defrost factor applied to COP is between the map's minimum and one, is exactly one outside the 17F-47F window, and is continuous at the map's break points.", "quantifier": "every air temperature and COP", "why_tests_cant": "continuum of inputs, boundary behaviour", "anchors": ["src/Condenser.cc:989-1022 Condenser::setupDefrostMap, defrostDerate"]}
{"id": "C27", "title": "Compressor lock-out follows ambient limits with hysteresis", "statement": "A compressor outside its ambient limits beyond hysteresis becomes (or stays) locked out; well inside the limits and not capped it becomes unlocked; between the thresholds the previous state persists. One evaluation decides and re-evaluating at the same conditions does not change the result.", "quantifier": "every ambient temperature, limits, hysteresis, engaged state, previous lock state; every sequence of ambient temperatures", "why_tests_cant": "state depends on unbounded history", "anchors": ["src/Condenser.cc:68-175 Condenser::toLockOrUnlock, maxedOut, shouldLockOut, shouldUnlock"]}
{"id": "C28", "title": "Turn-on and shut-off decisions follow the configured logics", "statement": "A heat source decides to heat exactly when some turn-on logic fires (with its standby condition, if it checks one) and nothing tells it to shut off; it shuts off exactly when the tank bottom is at setpoint or some shut-off logic fires. So it never decides to heat while it would shut off.", "quantifier": "every list of logics, every tank state", "why_tests_cant": "lists of logics are unbounded", "anchors": ["src/HPWHHeatSource.cc:264-333 HeatSource::shouldHeat, shutsOff"]}
{"id": "C29", "title": "Demand response lock-outs are honoured", "statement": "In any time step whose demand-response signal locks out compressors (resistance elements), no compressor (resistance element) adds heat, consumes operating energy or reports run time; with both locked out nothing heats.", "quantifier": "every configuration of heat sources with backup/companion/followed-by links, every tank state, every signal", "why_tests_cant": "the control flow has many hand-over paths between sources", "anchors": ["src/HPWH.cc:253-588 HPWH::runOneStep", "src/HPWH.cc:2803-2814 HPWH::shouldDRLockOut"]}
{"id": "C30", "title": "Top-off signals engage heating at most once per period", "statement": "A held top-off-once signal forces heating only on the first step of the period; a held top-off-timer signal forces heating exactly on the steps where the timer wraps; releasing the signal re-arms it.", "quantifier": "every sequence of demand-response signals and step lengths", "why_tests_cant": "depends on unbounded signal history", "anchors": ["src/HPWH.cc:253-588 HPWH::runOneStep (timerTOT)", "src/HPWH.cc:2816-2819 HPWH::resetTopOffTimer"]}
{"id": "C31", "title": "A complete simulation step balances energy", "statement": "For a whole step: final tank heat content = initial content + heat delivered by all heat sources + extra heat + inlet water heat - outlet water heat - reported standby losses.", "quantifier": "every configuration, tank state, draw, ambient temperature, demand-response signal for which the step succeeds", "why_tests_cant": "combines all heating, hand-over and draw paths", "anchors": ["src/HPWH.cc:253-588 HPWH::runOneStep", "src/HPWH.cc:2829-2873 HPWH::isEnergyBalanced"]}
{"id": "C32", "title": "The built-in energy-balance check is sound", "statement": "After any successful step the built-in energy-balance check with any positive tolerance accepts, when given the step's draw volumes, temperatures and initial heat content.", "quantifier": "every configuration and successful step", "why_tests_cant": "a check that fires falsely, or is blind, cannot be established by running it", "anchors": ["src/HPWH.cc:2829-2873 HPWH::isEnergyBalanced"]}
{"id": "C33", "title": "Environmental heat accounting", "statement": "The energy reported as taken from the environment equals total heat-source output minus total heat-source input, and condenser standby power is charged exactly for the time the condenser does not run.", "quantifier": "every configuration and step", "why_tests_cant": "sums over arbitrary numbers of sources", "anchors": ["src/HPWH.cc:500-588 HPWH::runOneStep"]}
{"id": "C34", "title": "Multi-step runs aggregate single steps", "statement": "Running N steps with given schedules is the same as N single steps, with summed energies and draw-weighted outlet temperature.", "quantifier": "every N and every schedule", "why_tests_cant": "unbounded N", "anchors": ["src/HPWH.cc:590-640 HPWH::runNSteps"]}
{"id": "C35", "title": "Setpoint changes are guarded", "statement": "A requested setpoint is accepted exactly when it is possible for the model: fixed-setpoint models accept only their own setpoint, compressor-only models nothing above the compressor's limit (less heat-exchanger offset), models with resistance nothing above boiling; a rejected request changes nothing, and every accepted history keeps the setpoint possible.", "quantifier": "every model configuration and every sequence of setpoint requests", "why_tests_cant": "unbounded request histories and all configurations", "anchors": ["src/HPWH.cc:822-985 HPWH::setSetpoint, isNewSetpointPossible"]}
{"id": "C36", "title": "The user's setpoint survives low-temperature limiting", "statement": "If a compressor temporarily limits the outlet temperature in cold air, the setpoint after the step equals the setpoint before it.", "quantifier": "every step", "why_tests_cant": "temporary mutation must be undone on every path", "anchors": ["src/HPWH.cc:642-674 HPWH::addHeatParent"]}
{"id": "C37", "title": "Room-temperature depression is bounded", "statement": "With temperature depression enabled the modelled room temperature always stays between ambient minus the maximum depression and ambient (constant ambient), approaching the former while the compressor runs and the latter while it does not.", "quantifier": "every run/idle history", "why_tests_cant": "unbounded history of relaxations", "anchors": ["src/HPWH.cc:253-588 HPWH::runOneStep (doTempDepression)"]}
{"id": "C38", "title": "State-of-charge is normalised and monotone", "statement": "With mains below the useful temperature and setpoint at or above it, the state-of-charge fraction is zero for a tank wholly below the useful temperature, one for a tank wholly at setpoint, between the two for node temperatures up to setpoint, and never decreases when any node is warmed.", "quantifier": "every tank, profile and temperatures", "why_tests_cant": "profile space is infinite; step discontinuity at the useful temperature", "anchors": ["src/Tank.cc:633-653 Tank::calcSoCFraction", "src/HPWHUtils.cc:235-242 HPWH::getChargePerNode"]}
{"id": "C39", "title": "State-of-charge control has genuine hysteresis", "statement": "With state-of-charge controls, heating starts only below target minus hysteresis and stops only above target plus hysteresis; the two decisions can never both fire, whatever targets are set later.", "quantifier": "every target, hysteresis, tank state, sequence of target changes", "why_tests_cant": "unbounded histories", "anchors": ["src/HPWH.cc:1428-1555 HPWH::setTargetSoCFraction, switchToSoCControls, turnOnSoC, shutOffSoC", "src/HPWHHeatingLogic.cc:20-32 SoCBasedHeatingLogic"]}
{"id": "C40", "title": "Inlet heights map to existing nodes", "statement": "Setting an inlet by fractional height accepts exactly fractions in [0,1], always selects an existing node, monotonically, bottom for 0 and top for 1.", "quantifier": "every fraction and node count", "why_tests_cant": "boundary at 1 and rounding to nodes", "anchors": ["src/Tank.cc:603-622 Tank::setNodeNumFromFractionalHeight"]}
{"id": "C41", "title": "Resizing a tank keeps its insulation quality", "statement": "Changing the volume with UA adjustment keeps UA per surface area unchanged, is rejected for fixed-size models (unless forced) and for non-positive volumes leaving everything unchanged, and going to another size and back restores UA.", "quantifier": "every pair of positive volumes, UA", "why_tests_cant": "continuum of volumes; composition of changes", "anchors": ["src/Tank.cc:123-178 Tank::setVolume_L, setVolumeAndAdjustUA, getSurfaceArea_m2"]}
{"id": "C42", "title": "Unit conversions are inverse pairs and unit-tagged accessors agree", "statement": "Each unit conversion and its reverse are mutually inverse, and a quantity written with a unit tag and read back with the same tag is unchanged; a temperature difference is converted as a difference.", "quantifier": "every value and unit tag", "why_tests_cant": "all values, all tagged accessors", "anchors": ["src/HPWH.hh:1595-1665 unit conversions", "src/HPWH.cc:1081-1426 tagged setters/getters"]}
{"id": "C43", "title": "Tank description survives export and import", "statement": "Exporting a tank description and importing it into a tank reproduces volume, UA, fittings UA, mixing-on-draw behaviour and heat-exchanger settings.", "quantifier": "every tank description", "why_tests_cant": "all field combinations including disabled features", "anchors": ["src/Tank.cc:33-87 Tank::from, Tank::to"]}
{"id": "C44", "title": "Heating logics survive export and import", "statement": "Exporting a heating logic and importing it yields a logic making the same decision in every tank state.", "quantifier": "every heating logic", "why_tests_cant": "all field combinations", "anchors": ["src/HPWHHeatingLogic.cc:294-530 HeatingLogic::make, to"]}
{"id": "C45", "title": "Product information survives export and import", "statement": "Exporting manufacturer and model number and importing them reproduces them, including when only one is present.", "quantifier": "every combination of present/absent fields", "why_tests_cant": "all combinations", "anchors": ["src/HPWH.hh:200-245 ProductInformation"]}
{"id": "C46", "title": "Swapping performance-grid axes only re-indexes the table", "statement": "After swapping two grid axes, the table value at any grid point equals the former value at the point with those two coordinates exchanged; swapping twice restores the original.", "quantifier": "every number of axes, axis sizes, pair of axes, table contents", "why_tests_cant": "mixed-radix index arithmetic over arbitrary dimensions", "anchors": ["src/HPWHUtils.cc:251-300 HPWH::swapGridAxes"]}
{"id": "C47", "title": "Grid vectors are put in strictly increasing order without loss", "statement": "Arranging a grid vector yields a strictly increasing vector with exactly the same set of values; trimming keeps exactly those in the range.", "quantifier": "every vector", "why_tests_cant": "all vectors", "anchors": ["src/Condenser.cc:177-204 arrangeGridVector, trimGridVector"]}
{"id": "C48", "title": "Scaling the compressor to a capacity delivers that capacity", "statement": "After asking for a compressor capacity at given conditions, the capacity reported at the same conditions and units equals the request; COP is unchanged.", "quantifier": "every performance map, conditions, unit, positive request", "why_tests_cant": "arbitrary performance functions", "anchors": ["src/HPWH.cc:1844-1922 HPWH::getCompressorCapacity", "src/HPWH.cc:2431-2461 HPWH::setScaleCapacityCOP, setCompressorOutputCapacity"]}
{"id": "C49", "title": "Resistance capacity set and read agree", "statement": "Setting the capacity of the resistance element(s) at a position and reading it back in the same unit gives the value set per element; elements elsewhere are unchanged; invalid positions/powers are rejected without change.", "quantifier": "every configuration, position, unit, value", "why_tests_cant": "all configurations and ranks", "anchors": ["src/HPWH.cc:2463-2583 HPWH::setResistanceCapacity, getResistanceCapacity", "src/HPWH.cc:2781-2801 mapResRelativePosToHeatSources"]}
{"id": "C50", "title": "First-hour rating designation is total and monotone", "statement": "Every first-hour rating falls in exactly one usage class, higher ratings never in a lower class, with thresholds 18, 51 and 75 gallons, and each class's draw pattern delivers its nominal daily volume with ordered draws inside the day.", "quantifier": "every rating; every designation's whole pattern", "why_tests_cant": "thresholds are exact boundaries on a continuum", "anchors": ["src/HPWH.cc:90-143 drawPatterns", "src/HPWH.cc:3648-3812 findFirstHourRating"]}
{"id": "C51", "title": "The 24-hour test draws exactly the prescribed water", "statement": "The minute-by-minute scheduler of the 24-hour test delivers, for each prescribed draw, exactly its volume at no more than its flow rate, never before its start time, and so delivers the pattern's total volume provided each draw can finish before the next begins.", "quantifier": "every draw pattern", "why_tests_cant": "scheduler state machine over unbounded patterns", "anchors": ["src/HPWH.cc:3820-4265 HPWH::run24hrTest"]}
{"id": "C52", "title": "Parameter fitting reports failure when the target is missed", "statement": "When the one-parameter fit returns without error, the metric evaluated at the returned parameter is within tolerance of the target.", "quantifier": "every metric function and initial value", "why_tests_cant": "needs every function", "anchors": ["src/HPWHFitter.cc:33-108 secant", "src/HPWHFitter.cc:242-274 Fitter::fit"]}
{"id": "C53", "title": "Copying a simulator gives an independent equal simulator", "statement": "A copy of a simulator has the same settings, and later changes to one do not affect the other.", "quantifier": "every configuration and later operation sequence", "why_tests_cant": "aliasing appears only after later operations", "anchors": ["src/HPWH.cc:197-237 HPWH::operator="]}
{"id": "C54", "title": "Adding extra heat by distribution is accounted for", "statement": "When extra heat is supplied as a distribution of non-negative powers, heat content rises by exactly the reported extra energy input.", "quantifier": "every distribution length and values, every stratified tank", "why_tests_cant": "resampling between arbitrary sizes, redistribution by temperature", "anchors": ["src/HPWH.cc:2632-2655 HPWH::addExtraHeat", "src/Tank.cc:773-795 Tank::modifyHeatDistribution"]}
{"id": "C55", "title": "Sizing fractions are proper fractions", "statement": "The sizing fractions reported for a compressor-driven model (aquastat fraction and useful-tank fraction) lie in [0,1] whenever they are reported without error.", "quantifier": "every configuration of turn-on/shut-off logics", "why_tests_cant": "all configurations", "anchors": ["src/HPWH.cc:2361-2417 HPWH::getSizingFractions", "src/HPWHHeatingLogic.cc:197-224 TempBasedHeatingLogic::nodeWeightAvgFract"]}
{"id": "C56", "title": "No heat source runs longer than the step", "statement": "In every step each heat source reports a run time between zero and the step length.", "quantifier": "every configuration and step", "why_tests_cant": "hand-over of remaining minutes through followed-by/backup chains", "anchors": ["src/HPWH.cc:380-470 HPWH::runOneStep"]}
{"id": "C57", "title": "Legacy performance polynomials interpolate between their defining temperatures", "statement": "Performance given by polynomials at several ambient temperatures reproduces each polynomial at its own temperature and interpolates linearly in between, with output power equal to COP times input power.", "quantifier": "every polynomial set with at least two increasing temperatures, every temperature pair", "why_tests_cant": "continuum of temperatures", "anchors": ["src/HPWH.cc:4429-4511 PerformancePolySet::getAmbientT_index, evaluate"]}
{"id": "C58", "title": "No heat source uses more than its rated energy in a step", "statement": "In every step the energy consumed by a resistance element is at most its rated power times the step length.", "quantifier": "every configuration and step", "why_tests_cant": "hand-over of remaining minutes through backup chains can run one element twice", "anchors": ["src/HPWH.cc:440-506 HPWH::runOneStep"]}
{"id": "C59", "title": "Derived heat-source information is right for every arrangement of heat sources", "statement": "After the simulator has derived its internal values, it knows its main heat pump (the last one), whether it has resistance elements, the element heating from furthest down, the first element marked as having priority, and which heat sources cool the room, whatever the number and order of heat sources; nothing else about the heat sources changes.", "quantifier": "every list of heat sources with valid heat distributions", "why_tests_cant": "unbounded lists of heat sources; ties and absent kinds", "anchors": ["src/HPWH.cc:2686-2801 HPWH::calcDerivedValues, calcDerivedHeatingValues"]}
{"id": "C60", "title": "Exporting a simulator does not change it", "statement": "Writing the description of a simulator leaves the simulator, in particular its setpoint, unchanged.", "quantifier": "every simulator, every way its performance is given", "why_tests_cant": "the export temporarily changes the setpoint on some paths only", "anchors": ["src/Condenser.cc:423-880 Condenser::to", "src/HPWH.cc:3170-3568 HPWH::to"]}
{"id": "C61", "title": "An accepted configuration is well formed", "statement": "A simulator whose configuration is accepted has a positive tank volume, heat distributions that are valid, a setpoint that is allowed, inlet nodes that exist, and heat sources whose control logics can be evaluated.", "quantifier": "every configuration accepted by the check", "why_tests_cant": "the space of configurations is infinite; the check must be read as a whole", "anchors": ["src/HPWH.cc:2803-3100 HPWH::checkInputs", "src/HPWH.cc:2686-2779 calcDerivedValues"]}
{"id": "C62", "title": "Control logics over a range read the average of that range", "statement": "A heating logic built for a range of heights compares the average temperature of exactly that part of the tank.", "quantifier": "every range of heights, tank size and profile", "why_tests_cant": "resampling between twelfths and nodes; boundary cases at bottom and top", "anchors": ["src/HPWH.cc:1557-1758 HPWH::getRangeDistribution, topThird, bottomThird, ..."]}
{"id": "C63", "title": "A draw displaces water from the inlets to the top", "statement": "During a draw the water entering at an inlet displaces the water above it upwards: in draws of at most one node volume every node gains the inlet water entering it and the water rising from the node below, and loses what rises past it; nodes below both inlets keep their water. The reported outlet temperature is the average of the water leaving the top. Afterwards inversions are removed, and the lower part is mixed by a third if so configured.", "quantifier": "every tank without heat exchanger, profile, draw volume, inlet split, inlet heights", "why_tests_cant": "inlet water ending at the wrong height conserves energy and is not seen by balance checks; unbounded number of increments", "anchors": ["src/Tank.cc:432-528 Tank::updateNodes"]}
{"id": "C64", "title": "The summary of the 24-hour test describes the day that was simulated", "statement": "The figures a 24-hour test reports - volume drawn, electricity used, heat delivered, average outlet and inlet temperatures, time without draws, the minute-by-minute records - are those of one uninterrupted simulation in which the draws of the usage class's pattern are made; the tank's heat content changes over the day by the heat its sources gave off, less the heat reported as delivered, less the standby losses.", "quantifier": "every simulator, usage class, test conditions and history of the day", "why_tests_cant": "1441 consecutive minutes of arbitrary simulators; sums kept beside the simulation can miss or double a minute", "anchors": ["src/HPWH.cc:3820-4265 HPWH::run24hrTest"]}
{"id": "C65", "title": "The test's figures of merit follow from the day as the test procedure says", "statement": "The recovery efficiency is the heat stored and delivered until the system has first recovered, per electricity used until then; the energy factor is the heat needed to raise the water drawn by 75 F per electricity corrected to standard conditions; the annual consumption is that of 365 such days of raising the water by 67 F.", "quantifier": "every simulator, usage class, test conditions and history of the day", "why_tests_cant": "needs the exact history of arbitrary simulators; recovery can happen at any minute or never", "anchors": ["src/HPWH.cc:4061-4264 HPWH::run24hrTest"]}
{"id": "C66", "title": "A test starts from a recovered system", "statement": "The preparation of a test waits until the heat is off, draws water at the prescribed flow until the heat comes on, and then waits without a draw until it is off again; it ends one minute later.", "quantifier": "every simulator, test conditions and number of minutes this takes", "why_tests_cant": "unbounded waiting times; the phases can follow each other in one minute", "anchors": ["src/HPWH.cc:3575-3641 HPWH::prepareForTest"]}
{"id": "C67", "title": "Generic models differ from their base model by a constant COP", "statement": "A generic model fitted to a uniform energy factor has the input power of its base model, and a COP that differs from the base model's by the same amount at every ambient and water temperature; fitting to a single test changes only the constant of the entry nearest to the test's ambient temperature, and is accepted only if the COP is not negative at the largest setpoint nor larger there than at 0 C.", "quantifier": "every polynomial set, test function, target and temperature pair", "why_tests_cant": "needs every test function and a continuum of temperatures", "anchors": ["src/HPWH.cc:4338-4412 HPWH::makeGenericEF, makeGenericUEF"]}
{"id": "C68", "title": "Heat sources keep names, order, links and kinds through export and import", "statement": "Exporting a simulator whose heat sources have different names and importing the description gives the same heat sources, in the same order, with the same names, kinds and element powers, the same links between them (backup, companion, followed-by), the same priority source, and heat distributions that heat every node by the same share.", "quantifier": "every simulator that can be exported, every set of links, every simulator it is imported into", "why_tests_cant": "any number of heat sources and any link structure; links are written as names and looked up when read", "anchors": ["src/HPWH.cc:3232-3425 HPWH::from", "src/HPWH.cc:3427-3568 HPWH::to", "src/HPWHHeatSource.cc:91-180 HeatSource::from, to"]}
{"id": "C69", "title": "Condenser settings survive export and import", "statement": "Exporting a simulator and importing the description reproduces, for every condenser, its configuration, maximum setpoint, hysteresis, standby power, defrost settings, low-temperature limit, ports, flow rate and secondary heat exchanger.", "quantifier": "every simulator with condensers that can be exported", "why_tests_cant": "all field combinations, with conversions of units both ways, and settings written only under conditions", "anchors": ["src/Condenser.cc:225-421 Condenser::from", "src/Condenser.cc:423-880 Condenser::to", "src/HPWH.cc:3197-3425 HPWH::from"]}
{"id": "C70", "title": "The exported performance map is the condenser's performance", "statement": "The performance map in an exported description gives at every grid point the input power and heating capacity the simulator uses at these conditions, and a simulator made from the description uses the same values there.", "quantifier": "every performance function and grid, every interpolation library exact at grid points", "why_tests_cant": "functions on a continuum of temperatures; row order of up to three axes", "anchors": ["src/Condenser.cc:264-421 Condenser::from", "src/Condenser.cc:423-880 Condenser::to", "src/Condenser.cc:1285-1404 setUpGridAxes, makePerformanceBtwxt"]}
{"id": "C71", "title": "Descriptive texts and ratings survive export and import", "statement": "The description text and the certified ratings of a simulator come back from export and import, absent ones as absent.", "quantifier": "every combination of present and absent fields", "why_tests_cant": "all combinations", "anchors": ["src/HPWH.hh:160-312 Description, ProductInformation, Rating10CFR430", "src/HPWHUtils.hh:59-89 generate_metadata"]}
{"id": "C72", "title": "Exporting what has been imported gives the same description", "statement": "If a description that was written by an export is imported and exported again, the second description equals the first.", "quantifier": "every simulator that can be exported, every simulator the description is imported into", "why_tests_cant": "fixed-point property of two large conversions over all field combinations", "anchors": ["src/HPWH.cc:3170-3568 HPWH::from, HPWH::to", "src/Condenser.cc:225-880 Condenser::from, Condenser::to"]}
{"id": "C73", "title": "The standby figures describe the standby period", "statement": "The standby period of the 24-hour test begins six minutes after the first recovery and ends with the next draw, the next heating or after eight hours; the hourly loss is the electricity used in it, less the change of the tank's heat content over the recovery efficiency, per hour of the period, and the loss coefficient is this loss per mean temperature difference between tank and room.", "quantifier": "every simulator and draw pattern class for which the test returns, every course of heating", "why_tests_cant": "the period can begin and end at any minute, or never", "anchors": ["src/HPWH.cc:4084-4125 HPWH::run24hrTest", "src/HPWH.cc:4153-4182 HPWH::run24hrTest"]}
{"id": "C74", "title": "The first-hour rating is the water delivered hot in the first hour", "statement": "From the prepared system, water is drawn at the prescribed flow until it is 15 F colder than it was, then the tank is heated until it no longer becomes warmer, and so on; the draw going on after one hour is the last. The rating is the sum of the draws, the last one in proportion to the temperatures.", "quantifier": "every simulator for which the rating returns, any number and length of draws and pauses", "why_tests_cant": "unbounded number of draws, pauses and minutes; depends on the whole history", "anchors": ["src/HPWH.cc:3648-3812 HPWH::findFirstHourRating"]}
{"id": "C75", "title": "Output tables have one cell per heading, showing the named value", "statement": "In the tables written by the CSV functions every row has as many cells as the heading has names, and the number in each cell is the quantity the name announces, for any number of heat sources and thermocouples, either kind of compressor, either control and either unit system; a thermocouple's number is the average over its part of the tank.", "quantifier": "every simulator, record, user preamble, number of thermocouples and unit choice", "why_tests_cant": "number of columns depends on configuration in five independent ways; values range over all states", "anchors": ["src/HPWH.cc:677-742 writeCSVHeading, writeCSVRow (state)", "src/HPWH.cc:745-818 writeCSVHeading, writeCSVRow (test data)"]}
{"id": "C76", "title": "Measured tank temperatures can be loaded from a file", "statement": "setTankFromMeasured sets the tank to the temperatures the file gives for the requested minute.", "quantifier": "every file, minute and simulator", "why_tests_cant": "all texts of a file", "anchors": ["src/HPWH.cc:2170-2249 HPWH::setTankFromMeasured"]}
{"id": "C77", "title": "Read-outs in different units are the same quantity", "statement": "Energies, temperatures, volumes, flow rates and durations read out in one unit are the same quantity as in another; a unit of another kind, or the number of a heat source or thermocouple that does not exist, is rejected.", "quantifier": "every state, unit, heat-source number and thermocouple", "why_tests_cant": "all values and all integers as numbers", "anchors": ["src/HPWH.cc:1782-1796 getNthSimTcouple", "src/HPWH.cc:1924-2142 getNthHeatSourceEnergyInput and the following getters", "src/HPWH.cc:2277-2359 isCompressorExternalMultipass, getExternalMPFlowRate, getCompressorMinRuntime"]}
{"id": "C78", "title": "A schedule file gives every minute its value", "statement": "A schedule file with a default value and exceptions for minutes or hours is read as a value for every minute of the test: that of the last exception for the minute (or its hour), otherwise the default; a file without a default or with an exception outside the test is reported.", "quantifier": "every schedule file, marker, list of exceptions and test length", "why_tests_cant": "all lists of exceptions in any order, all lengths", "anchors": ["src/hpwh/run.cpp:530-602 readSchedule", "src/hpwh/run.cpp:275-292 run"]}
{"id": "C79", "title": "The run command simulates every minute as scheduled and reports each one", "statement": "A test run by the command simulates every minute with the inlet temperature, draw, air temperatures, demand-response signal, setpoint and target the schedules have for it, writes one row per minute with the values recorded for that minute, and is not ended by its energy and run-time checks.", "quantifier": "every control file, set of schedules and simulator; any number of minutes below 500000 (checks: any number)", "why_tests_cant": "arbitrary schedules over an arbitrary number of minutes", "anchors": ["src/hpwh/run.cpp:110-527 run"]}
{"id": "C80", "title": "Long tests are summed per day", "statement": "The table of a test of more than 500000 minutes has one row per complete day, and for each heat source the energies of the minutes of that day, each counted once.", "quantifier": "every control file, set of schedules and simulator; any number of minutes above 500000", "why_tests_cant": "half a million minutes and more per test; every number of days", "anchors": ["src/hpwh/run.cpp:359-371 run", "src/hpwh/run.cpp:493-521 run"]}
{"id": "C81", "title": "Resistance tanks are built from a few numbers", "statement": "initResistanceTank and initResistanceTankGeneric accept exactly the meaningful numbers. The heater they give has the volume, elements of the powers in the places and with the start conditions documented, the heat loss that belongs to the energy factor or R-value, is full of water at the setpoint with everything off, does not depend on what the simulator was before, and every run of it balances.", "quantifier": "every volume, energy factor or R-value, both powers, and every previous state of the simulator", "why_tests_cant": "all rational volumes, factors and powers; all previous states; all runs", "anchors": ["src/HPWHpresets.cc:14-205 initResistanceTank, initResistanceTankGeneric", "src/Resistance.cc:67-82 Resistance::setup", "src/HPWH.cc:171-195 setAllDefaults"]}
{"id": "C82", "title": "Resistance elements take turns", "statement": "In a water heater with resistance elements only, none being the backup or companion of another, at most one is on after any step without a top-off signal if at most one was before. The elements together run no longer than the time simulated and use together no more than the most powerful of them would if it were always on.", "quantifier": "every such heater, every number of elements and nodes, every run of any length without top-off signals", "why_tests_cant": "all histories of draws, temperatures and lock-out signals", "anchors": ["src/HPWH.cc:253-588 runOneStep", "src/HPWH.cc:2659-2667 turnAllHeatSourcesOff", "src/HPWHHeatSource.cc:250-262 engageHeatSource, disengageHeatSource", "src/HPWHpresets.cc:20-113 initResistanceTank"]}
{"id": "C83", "title": "Water stays between the temperatures supplied", "statement": "If the water in the tank, the setpoint, the water that flows in and the air around the tank all lie between two temperatures, then so do all temperatures of the tank and of the water delivered, after every step and on average over a run. Heat sources need to be sound only between these temperatures for steps and runs to balance energy.", "quantifier": "every configuration without external multi-pass heat pump (for these: the lower limit), every run of any length, with or without cooling of the room, for steps short enough for the heat losses", "why_tests_cant": "all histories of draws, temperatures and signals; all performance functions", "anchors": ["src/HPWH.cc:253-588 runOneStep", "src/Tank.cc:418-601 updateNodes", "src/Tank.cc:655-715 addHeatAboveNode", "src/Condenser.cc:1048-1277 addHeatExternal, addHeatExternalMP"]}
{"id": "C84", "title": "The generic heat pump is built from three numbers", "statement": "initGeneric accepts exactly the positive volumes and the energy factors other than -1.92. The heater has the volume, the elements and the compressor in the documented places, the heat loss of the regression over the volume, is full of water at the setpoint with everything off; its COP is the reference COP times a factor linear in the energy factor and its output that of the reference. For energy factors above -1.92, COP, input and output are positive wherever the compressor may run, and runs stay between the temperatures supplied and balance energy.", "quantifier": "every volume, energy factor and use of resistance, every previous state of the simulator, every run", "why_tests_cant": "all rational volumes and factors; all air and water temperatures; all runs", "anchors": ["src/HPWHpresets.cc:207-328 initGeneric", "src/HPWH.hh:1250-1300 PerformancePolySet"]}
{"id": "C85", "title": "Built-in models are complete and findable by name", "statement": "A name and its number determine each other. Every model listed with settings can be initialised from whatever state the simulator is in, passes all checks, and is delivered with the setpoint, volume, heat loss and heat sources listed, full of water of one temperature, with everything off. Initialising by name gives the model of that name and fails for all other texts.", "quantifier": "all names, numbers and texts, all built-in models, every previous state of the simulator and every performance table", "why_tests_cant": "108 models in every previous state; all texts and numbers; all interpolation results", "anchors": ["src/HPWHpresets.cc:331-4374 initLegacy", "src/HPWH.cc:3048-3065 getPresetNumberFromName, getPresetNameFromNumber", "src/HPWH.cc:171-195 setAllDefaults", "src/HPWH.cc:2686-2708 calcDerivedValues"]}
{"id": "C86", "title": "Built-in models heat wherever they may run", "statement": "Wherever the settings of a built-in model let its heat pump run, the heat pump has a positive COP and takes and delivers positive power. Runs of the model keep water between the coldest and warmest temperatures supplied or allowed, and balance energy.", "quantifier": "all built-in models, air and water temperatures, and runs of any length", "why_tests_cant": "all rational air and water temperatures for each of the models; all runs", "anchors": ["src/HPWHpresets.cc:343-4374 initLegacy", "src/HPWH.hh:1250-1300 PerformancePolySet", "src/HPWH.cc:253-588 runOneStep"]}
{"id": "C87", "title": "A resistance heater survives export and import", "statement": "What runs report depends only on the settings and the state listed in the specification: heaters that agree on these give the same results and the same errors in every step and run, however their distributions and logics are written. Deriving values again changes nothing. A heater with resistance elements only that is accepted, has distinct names for its elements, and decides on temperatures only can be written to a description; writing does not change it. A simulator that agrees with it on what descriptions leave out accepts the description. If the heater has not run yet, the two cannot be told apart by any run of any length. Every tank built by initResistanceTank or initResistanceTankGeneric is such a heater.", "quantifier": "every pair of heaters, every accepted heater with resistance elements only, every volume, factor and power accepted by the initialisers, every run of any length", "why_tests_cant": "all configurations; all histories of draws, temperatures and signals after the import", "anchors": ["src/HPWH.cc:3170-3310 from", "src/HPWH.cc:3417-3498 to", "src/HPWH.cc:2686-2708 calcDerivedValues", "src/HPWH.cc:590-640 runNSteps", "src/HPWHpresets.cc:14-205 initResistanceTank, initResistanceTankGeneric"]}
{"id": "C88", "title": "The control file of a test takes effect", "statement": "A control file is accepted exactly if its last length_of_test is not 0. Of lines with the same keyword the last counts; all initialTankT_C lines together are one profile. Before the first minute the heater has the setpoint (the first of its schedule if there is one) if it allows it, the inlet, size and timer limit given, mixing and conduction off if so given, and is filled with water at the setpoint or with the given profile, which for one temperature per node gives each node its temperature. What is not named keeps its value.", "quantifier": "all control files, schedules, heaters and interpolation libraries", "why_tests_cant": "all texts of control files and all heaters they may be applied to", "anchors": ["src/hpwh/run.cpp:188-347 run", "src/Tank.cc:198-214 Tank::setProfileTs_C"]}
{"id": "C89", "title": "Commands do what their arguments name", "statement": "A model named to a command is the one loaded, a number is used if no name is given and a file if neither is; a description read from a file carries the name of the file. A draw profile and test conditions are found by their name whatever the capital letters and blanks. measure reports the 24-hour test of the model with the profile named, or with the one its first-hour rating gives, under the conditions named; results go to the files named. Arguments that name nothing are rejected.", "quantifier": "all texts given as arguments, all models, all water heaters", "why_tests_cant": "all argument texts; every run of the tests", "anchors": ["src/hpwh/measure.cpp:97-196 measure", "src/hpwh/convert.cpp:88-119 convert", "src/hpwh/run.cpp:25-186 run", "src/HPWH.hh:1667-1681 getModelNameFromFilepath"]}
{"id": "C90", "title": "Loading a description under a built-in model's name gives that model", "statement": "A description loaded under the name of a built-in model gets the settings of that model that descriptions do not carry (fixed setpoint, scaling, storage tank, which heat sources come first, what shuts the compressor off); under any other name it gets none of them. Nothing of the model held before is left.", "quantifier": "all descriptions, names and previous states of the simulator, for any number of nodes and heat sources", "why_tests_cant": "all texts as names; all descriptions; every previous state", "anchors": ["src/HPWH.cc:3067-3129 configure", "src/HPWH.cc:3131-3168 initPreset, initFromJSON", "src/HPWH.cc:3170-3230 from", "src/HPWH.cc:171-195 setAllDefaults", "src/HPWHpresets.cc:343-4374 initLegacy"]}
{"id": "C91", "title": "Heat sources run only for a reason", "statement": "A heat source that is on after a step, or that ran or delivered heat in it, was on before, is the first in order that asks for heat while the heater was not heating, has priority and asks for heat, is the compressor in place of one with priority that is locked out, is topping off the tank, or is the companion, backup or follower of one with such a reason. Any other uses no more than its standby power. A heater at rest that is not asked for heat stays at rest, and its water is what the draw and the losses make of it. After every step the heater counts as heating exactly if one of its heat sources is on.", "quantifier": "all heaters, steps, signals and histories of any length", "why_tests_cant": "all settings of logics and links between heat sources; all histories", "anchors": ["src/HPWH.cc:326-379 runOneStep", "src/HPWH.cc:381-515 runOneStep", "src/HPWHHeatSource.cc:250-333 shouldHeat, shutsOff", "src/HPWH.cc:2659-2667 turnAllHeatSourcesOff"]}
{"id": "C92", "title": "A resistance heater recovers", "statement": "A heater with resistance elements heats without pause: if an element is on at the end of a step, its elements together have run for the whole step. In such a step without a draw the tank gains at least the energy of the weakest element less the largest possible loss. So without draws the elements are all off after a number of steps that follows from the volume, the temperatures, the power and the losses.", "quantifier": "all heaters with resistance elements only, where followers come later in order; all initial temperatures and sequences of air temperatures and signals other than top-off; any number of steps", "why_tests_cant": "all initial states and unbounded sequences of steps", "anchors": ["src/HPWH.cc:381-510 runOneStep", "src/Resistance.cc:84-101 addHeat", "src/Tank.cc:537-601 Tank::updateNodes"]}
{"id": "C93", "title": "Making a model with a given energy factor", "statement": "When `make` (or makeGenericEF) succeeds, the performance of the first heat pump of the loaded water heater is that of the tier's polynomials with the constant of the COP changed in the one entry nearest to the ambient temperature of the test, and no other setting of the heater is changed. The constant is the result of 24-hour tests of the heater itself under the conditions and with the draw profile asked for, each starting where the last one ended, at most 23 of them: the last test gave the energy factor asked for within 1e-12 with that constant, or one of the first two points did and the constant is the tier's, or the search was given up after 19 steps. The COP at the test's ambient temperature is not negative at the largest setpoint and not smaller at 0 C. What is reported is one more 24-hour test of the heater so made; the report goes to the results file named, the model to generic.json in the output directory, and only if one is given. Without a heat pump there is an error.", "quantifier": "all simulators, polynomials in order, targets, draw profiles, conditions and command arguments", "why_tests_cant": "a test fits one model to one target; the search runs a whole simulation per evaluation, whose result depends on the state the earlier ones left", "anchors": ["src/hpwh/make.cpp:115-232 make", "src/HPWH.cc:4338-4380 makeGenericEF", "src/HPWH.cc:1802-1811 getCompressor", "src/HPWHFitter.cc:33-108 secant", "src/HPWHFitter.cc:240-272 fit", "src/HPWHFitter.hh:127-185 EF_Metric", "src/HPWH.hh:1293-1304 make, use"]}
{"id": "C94", "title": "Generic models fitted to several tests", "statement": "makeGenericE50_UEF_E95 fits the heat pump to the three tests one after the other and independently: with performance points at the temperatures of the three tests, the later fits do not change how the heat pump performs under the conditions of the earlier ones, and nothing but the constants of the COP has changed at the end. makeGenericUEF fits to the one test and then moves the COP at all other temperatures by as much, so that the COP differs from the base model's by the same amount everywhere, and under the conditions of the test the heat pump still performs as it was fitted. Without a heat pump there is an error.", "quantifier": "all heaters, polynomials with points at the temperatures of the tests, targets and draw profiles for which the fits succeed; all temperatures of air and water", "why_tests_cant": "all heaters, targets and temperatures; the tests the fits consist of start where the last one ended", "anchors": ["src/HPWH.cc:4382-4427 makeGenericUEF, makeGenericE50_UEF_E95", "src/HPWH.cc:77-79 testConfiguration_E50, testConfiguration_UEF, testConfiguration_E95", "src/HPWH.cc:4429-4524 getAmbientT_index, evaluate", "src/HPWH.hh:1373-1422 makeGenericE50_UEF_E95, makeGenericUEF"]}
{"id": "C95", "title": "A tank left alone takes on the temperature of the air", "statement": "While no water is drawn, no extra heat is added and no heat source runs (because they are locked out, or nothing is on and nothing asks for heat, or there are none), the water approaches the temperature of the air around the tank: its largest distance above and below the air's temperature shrinks in every step at least by the share of heat the wall lets through, so that it becomes as small as one likes after a number of steps that follows from that share. Water warmer than the air stays warmer and keeps all but a known share of its excess per step. In every step the heat stored falls by exactly the standby losses reported, which are not negative for water warmer than the air.", "quantifier": "all tanks with steps short enough for their losses and conduction, all initial temperatures (hot, cold, mixed), air temperatures and numbers of steps", "why_tests_cant": "unbounded numbers of steps from every initial profile; a limit", "anchors": ["src/Tank.cc:418-601 Tank::updateNodes", "src/HPWH.cc:326-515 runOneStep", "src/Tank.cc:374-416 Tank::mixInversions"]}
{"id": "C96", "title": "A warmer tank stays warmer", "statement": "Of two water heaters with the same tank and step length, neither of which is heated, the one that starts nowhere warmer and is supplied with water and surrounded by air that are never warmer, with the same draws, is nowhere warmer after any number of steps, and in every step with a draw the water it delivers is not warmer. Colder supply never yields warmer water.", "quantifier": "all tanks with steps short enough for their losses and conduction, with one or two inlets or a heat exchanger; all pairs of initial temperatures, draws, inlet and air temperatures, and numbers of steps; any heat sources, locked out", "why_tests_cant": "a comparison of all pairs of histories, of any length; the mixing of inversions moves water between nodes, so that order is not evident", "anchors": ["src/Tank.cc:374-416 Tank::mixInversions", "src/Tank.cc:418-601 Tank::updateNodes", "src/HPWH.cc:326-515 runOneStep"]}
{"id": "C97", "title": "Heating never makes the water colder", "statement": "Where the heat sources can only warm the water (resistance elements, condensers in or around the tank, external single-pass heat pumps that heat to at least the hottest water of the tank), no part of the tank is colder after the heating of a step than after its draw and losses, whichever sources run, and the water delivered in the step is not affected. Over any number of steps such a heater is everywhere at least as warm, and delivers water at least as warm, as one with the same tank that starts nowhere warmer and is never heated. Without the condition it is false: external multi-pass heat pumps cool the water on top by mixing, and single-pass heat pumps by returning water colder than that on top.", "quantifier": "all heaters and states with such sources, all controls, draws, air and inlet temperatures, signals and numbers of steps", "why_tests_cant": "a comparison of all pairs of histories, whatever the controls do", "anchors": ["src/HPWH.cc:326-515 runOneStep", "src/HPWH.cc:642-661 addHeatParent", "src/Condenser.cc:1048-1173 addHeatExternal", "src/Resistance.cc:84-101 addHeat", "src/Tank.cc:655-760 addHeatAboveNode, addExtraHeatAboveNode"]}
{"id": "C98", "title": "Averages of the tank by weights", "statement": "The average tank temperature by a list of weights is defined for any number of weights: the tank is cut into as many layers of equal height and each weight multiplies the mean temperature of its layer. With non-negative weights that total one the value lies between the coldest and the hottest water, equal weights give the plain average, a warmer tank reads no lower, a single one among zeros reads the simulated thermocouple of that layer, and the weighted distribution over layers of equal height gives the same value for weights of any positive total. The list itself is not brought to a total of one: a tank at one temperature reads its temperature times the total of the weights. The inlet nodes read back as they were set.", "quantifier": "all tanks and temperatures; lists of weights of any length, whether or not it divides the number of nodes; all port fractions", "why_tests_cant": "any number of nodes against any number of weights; layers may cut nodes anywhere", "anchors": ["src/Tank.cc:241-254 Tank::getAverageNodeT_C", "src/HPWH.cc:2151-2166 getAverageTankTemp_C", "src/HPWHUtils.cc:53-88 resample", "src/Tank.cc:337-348 Tank::getInletHeight", "src/HPWH.cc:1332 getInletHeight"]}
{"id": "C99", "title": "The future depends on the present state only", "statement": "What a simulator does next depends only on its settings and its present state: the temperatures in the tank, which heat sources are on and locked out, the setpoint, the top-off timer and the temperature of the room. Two simulators in the same state, whatever they reported before and however they came there, take the same steps, report the same and remain equal. So a run may be cut anywhere: two runs one after the other leave the simulator in the state the whole run leaves it in, and their energies, losses and run times add up to those of the whole run, although the first run leaves its sums where the outputs of a step are kept.", "quantifier": "all simulators and pairs of equal states, all inputs, runs of any length and all places to cut them", "why_tests_cant": "pairs of histories of any length; a report that is not reset, or a sum that leaks into the next run, shows only in particular sequences of calls", "anchors": ["src/HPWH.cc:253-588 runOneStep", "src/HPWH.cc:590-640 runNSteps", "src/HPWH.hh:667-684 runOneStep"]}
{"id": "C100", "title": "A proper water heater does not fail", "statement": "A step of a water heater whose settings fit together returns a result: no exception, no undefined value, no endless loop, whatever the draws, the signals, the weather, the sources that are on and the temperatures in the tank, within the limits of water and air it is made for. It then stays within those limits, so that a run of any number of steps with a draw returns a result too. The settings that fit together: steps have a length; what the logics look at can be calculated; a heat pump that defrosts has a map; the setpoint it is limited to in cold air may be set; a heat pump with a backup reaches the setpoint; an external single-pass heat pump has bounded output, shuts off by what lies above its outlet, and either by a temperature below the one it heats to or with the whole tank heated. The built-in models as delivered are such heaters, for the water and air temperatures of C86, all but the central multi-pass systems.", "quantifier": "all water heaters with such settings, all states and inputs within the limits, runs of any length", "why_tests_cant": "the absence of failures over all states and histories; some of them are exact coincidences (a source asked to run for exactly no time divides zero by zero), or need the loop of external heating to run long", "anchors": ["src/HPWH.cc:253-588 runOneStep", "src/HPWH.cc:590-640 runNSteps", "src/HPWH.cc:642-661 addHeatParent", "src/Condenser.cc:1048-1173 addHeatExternal", "src/Condenser.cc:930-1046 getPerformance", "src/HPWHHeatSource.cc:264-358 shouldHeat, shutsOff"]}
{"id": "C101", "title": "A resistance heater stops only when it is done", "statement": "In a water heater with resistance elements only, each of which spreads its heat evenly over the nodes it heats, heating stops only for a reason, as long as elements are not locked out and no top-off is asked for: if an element was on before a step or ran in it, and after the step none is on, then the water tells an element that was on to shut off, or an element has brought all water from where it heats upwards to the setpoint and the element that is to follow it, if any, is told to shut off. So where elements have no shut-off logics and those that nothing follows heat the bottom, heating stops only with all water in the tank at the setpoint; the resistance tanks with two elements are such heaters.", "quantifier": "all such heaters, states, draws, air and inlet temperatures, numbers of nodes and elements; for the resistance tanks all sizes, powers and runs of any length", "why_tests_cant": "an element may finish anywhere within a step, and a follower that fails to come on shows only when an element finishes early in a step in which nothing else calls for heat", "anchors": ["src/HPWH.cc:326-515 runOneStep", "src/Resistance.cc:84-101 addHeat", "src/HPWHHeatSource.cc:264-358 shouldHeat, shutsOff", "src/HPWHpresets.cc:20-113 initResistanceTank"]}
{"id": "C102", "title": "The performance of the heat pump can be replaced", "statement": "makeCondenserPerformance gives the first heat pump the performance of the polynomials it is given and changes nothing else: not the state, not the other heat sources, not the heat pump's limits, offsets and scales. What performance was there before does not matter any more, so of several replacements the last one counts. From then on the heat pump performs as the polynomials say at the temperatures of the air and the water, with its scales, and the capacity reported is theirs. Without a heat pump nothing happens and nothing is reported. With several heat pumps the capacity reported is that of the last one and does not change.", "quantifier": "all simulators, all polynomials of the three kinds, all temperatures", "why_tests_cant": "all settings and states of simulators and all polynomials", "anchors": ["src/HPWH.cc:1802-1832 getCompressor, makeCondenserPerformance", "src/HPWH.cc:1844-1922 getCompressorCapacity", "src/HPWH.hh:1293-1298 make", "src/HPWH.cc:4527-4560 PerformancePoly_CWHS_SP::make, PerformancePoly_CWHS_MP::make"]}
{"id": "C103", "title": "What is reported of external heating describes the water moved", "statement": "After a step in which an external heat pump ran, the reported volume, run time and output energy are the sums over portions of water that were taken from the tank, heated and put back, each with exactly the heat that accounts for its rise of temperature; the reported condenser temperatures are the means of the temperatures before and after, over time. So the reported outlet temperature is above the inlet temperature; with a single-pass heat pump it is the lower of condenser maximum and the setpoint it works with; with a multi-pass heat pump the volume is the flow rate times the run time, and the output energy is what that volume takes to warm up between the reported temperatures. A step without heating reports zeros. (With single-pass heating the last does not hold, because the means are over time and not over volume; and if two external heat pumps run in one step, the reported temperatures are wrong.)", "quantifier": "all tanks, sizes, draws, performance functions of positive output, flow rates and shut-off limits, any number of passes within a step", "why_tests_cant": "how many portions a step moves and at what temperatures depends on all of these; a sum that is divided once too often, or not reset, shows only for steps with certain numbers of passes", "anchors": ["src/Condenser.cc:1048-1164 addHeatExternal", "src/Condenser.cc:1175-1277 addHeatExternalMP", "src/Condenser.cc:912-927 addHeat", "src/HPWH.cc:2040-2060 getExternalVolumeHeated", "src/HPWH.cc:2112-2142 getCondenserWaterInletTemp, getCondenserWaterOutletTemp", "src/HPWH.cc:268-283 runOneStep"]}
{"id": "C104", "title": "Size counts only in proportion", "statement": "Take a water heater that is a times as large: a times the volume, losses, powers, standby power, pump power and flow rates, in a tank of the same height and number of nodes, in the same condition and with the same control. Under a times the draws and a times the extra heat it does the same as the original: every step and every run of any length succeeds or fails in the same way, with the same water temperatures in the tank and at the outlet, the same state of charge, the same heat sources on and locked out, and the same run times; all energies, losses and volumes reported are a times as large. So a bank of equal heaters that share the load equally may be simulated as one large heater.", "quantifier": "all water heaters of any number of nodes and heat sources, all positive factors, all states and inputs, runs of any length", "why_tests_cant": "two whole simulations are compared, for every factor; a threshold in litres, watts or kilojoules anywhere in a step breaks it only for some sizes", "anchors": ["src/HPWH.cc:253-588 runOneStep", "src/HPWH.cc:590-640 runNSteps", "src/Tank.cc:418-601 updateNodes", "src/Tank.cc:655-771 addHeatAboveNode, addExtraHeatAboveNode", "src/Condenser.cc:882-1277 addHeat", "src/Resistance.cc:84-101 addHeat"]}
{"id": "C105", "title": "Control by the state of charge stops at the target, within one node just useful", "statement": "In a water heater with an external single-pass heat pump whose heating is controlled by the state of charge, with water nowhere hotter than the setpoint, the reported state of charge after a step is the one of the water in the tank; and the heat pump does not bring it further above target plus hysteresis (if that is at least the charge of one node) than what one more node counts that has just become warm enough to be useful, up to tolerances of 0.0001: a charge above that was there before the heating. The heat pump runs only if it is not told to shut off, and it ends a period of heating early only if it is told to shut off then or the water it takes in is at setpoint. The heat in the tank is what draw and losses left plus the output energy.", "quantifier": "all tanks of any number of nodes, targets, hystereses, useful and mains temperatures, draws, performance functions of positive output, any number of passes within a step", "why_tests_cant": "how much water each pass moves follows from the charge, the coldest useful node and the one below it; a wrong fraction shows only for certain profiles of temperature and certain numbers of nodes", "anchors": ["src/Condenser.cc:1048-1164 addHeatExternal", "src/HPWHHeatingLogic.cc:10-116 SoCBasedHeatingLogic", "src/HPWHHeatSource.cc:311-346 shutsOff, fractToMeetComparisonExternal", "src/HPWH.cc:1469-1555 switchToSoCControls, shutOffSoC", "src/HPWH.cc:987-1009 calcSoCFraction, calcAndSetSoCFraction"]}
{"id": "C106", "title": "A water heater with one heat pump recovers", "statement": "In a water heater whose only heat source is a heat pump, with a condenser in or around the tank or external single-pass, without backup: if the heat pump is on after a step, then it has run for the whole step. A step without draw after which it is on adds to the heat in the tank at least what the heat pump provides at the least of its output powers, less the largest possible losses. So without draws the heat pump is off after at most as many steps as that takes to bring all the water to the setpoint. The output energy reported for external heating, single-pass or multi-pass, lies between the lowest and the highest output power times the run time.", "quantifier": "all tanks, sizes, performance functions, air temperatures within a range, initial temperatures, schedules of signals, any number of steps and of passes within a step", "why_tests_cant": "the heat pump may finish anywhere within a step, its power changes with the water as it warms up, and the bound is on whole histories", "anchors": ["src/HPWH.cc:326-515 runOneStep", "src/HPWH.cc:642-674 addHeatParent", "src/Condenser.cc:882-1277 addHeat, addHeatExternal, addHeatExternalMP", "src/HPWHHeatSource.cc:264-358 shouldHeat, shutsOff"]}
{"id": "C107", "title": "Inputs that play no part change nothing", "statement": "The result of a step, in every part of the state and every output, does not depend on the temperature of the air at the heat sources if all heat sources are resistance elements or the cooling of the room is modelled; nor on the temperature of the second inlet if no water enters there; nor on volume and temperature of the second inlet if nothing is drawn, or if the water drawn is heated in a heat exchanger and the second volume does not exceed the draw. So runs of any length do not depend on the air at the heat sources if all of them are elements or the cooling of the room is modelled.", "quantifier": "all water heaters, states, inputs, numbers of nodes and heat sources, runs of any length", "why_tests_cant": "two whole simulations are compared for every value of the input; a test with a few values does not meet the one at which a lock-out or a limit would take notice of it", "anchors": ["src/HPWH.cc:253-588 runOneStep", "src/HPWH.cc:386-507 runOneStep", "src/Tank.cc:418-530 updateNodes", "src/HPWH.cc:642-674 addHeatParent", "src/HPWH.cc:590-640 runNSteps"]}
{"id": "C108", "title": "Draws mix the bottom of the tank", "statement": "In a tank that is set to mix on draws, a draw moves and delivers the same water as in a tank without that setting. Then the water in the nodes that lie wholly within the set fraction of the tank, from the bottom, is mixed by a third: every difference of temperature between two of these nodes shrinks to two thirds, the heat stays the same, and the water above is left as it is.", "quantifier": "all tanks of any number of nodes, water temperatures, draws, one or two inlets, with or without heat exchanger, all non-negative fractions", "why_tests_cant": "the number of nodes mixed depends on the fraction and the number of nodes, and a wrong share leaves temperatures that look just as plausible", "anchors": ["src/Tank.cc:357-371 mixNodes", "src/Tank.cc:424-530 updateNodes", "src/Tank.cc:523-528 updateNodes"]}
{"id": "C109", "title": "An element stands in for the heat pump whose backup it is", "statement": "Take a water heater with a heat pump and an element that is its backup, perhaps with more heat sources without backup. If the heat pump is on after a step, then water was heated without pause: either the heat pump is not locked out and ran for the whole step, or it is locked out and the backup ran for the whole step in its place and put out its full power, or the heat pump is locked out and a signal locks out the elements too, and nothing ran. No other heat source did anything, and none is on. Being locked out does not switch the heat pump off: if it was on, its setpoint is within its reach and the water does not tell it to shut off, then it goes off in a step only if it, or its backup if it is locked out, finished before the end of the step. After any number of steps without a signal to top off at most one heat source is on.", "quantifier": "all water heaters with any number of nodes and heat sources, all control logics, performance functions, draws, air temperatures and signals other than to top off, histories of any length", "why_tests_cant": "whether the backup is asked depends on locks, on limits of air temperature and on the order of the heat sources; a lock-out in the wrong order leaves a heater cold only in some weather", "anchors": ["src/HPWH.cc:326-515 runOneStep", "src/HPWH.cc:386-507 runOneStep", "src/HPWH.cc:642-674 addHeatParent", "src/Condenser.cc:68-80 toLockOrUnlock", "src/Resistance.cc:84-101 addHeat"]}
{"id": "C110", "title": "The element with priority comes first", "statement": "In a water heater with an element that has priority and heats its nodes in equal shares, and any other elements and heat pumps that do not cool the water: if the element with priority asks for heat after the draw of a step, then it runs for the whole step and is the only heat source that is on or does anything, whichever heat source was on before; or at the end of the step all water from the lowest node it heats upwards is at the setpoint. This holds unless a signal locks out the elements or asks to top off.", "quantifier": "all water heaters with any number of nodes, elements, heat pumps and backups in any order, without companions; control logics, powers, draws, air temperatures, and states in which at most one heat source is on", "why_tests_cant": "the element with priority must take over from each other heat source, before or after it in the order, and a heat source that finishes in mid-step hands over to the next", "anchors": ["src/HPWH.cc:326-379 runOneStep", "src/HPWH.cc:384-510 runOneStep", "src/HPWHHeatSource.cc:264-358 shouldHeat, shutsOff", "src/Resistance.cc:84-101 addHeat"]}
{"id": "C111", "title": "One heat source at a time", "statement": "In a water heater without companions, whose heat sources with priority, if any, are elements: if at most one heat source is on at first, then at most one is on after any number of steps, unless there was a signal to top off or a signal that locks out the elements but not the heat pumps. If there are no backups either, the run times of the heat sources in a step add up to no more than the step. The first part holds of every built-in model without companions, from the simulator as delivered, through any run.", "quantifier": "all water heaters with any number of nodes, elements and heat pumps, control logics, backups, followers and priorities, all draws, temperatures and signals other than those named, histories of any length", "why_tests_cant": "heat sources hand over to backups, followers and heat sources with priority at many points of a step, and two that are on at once draw twice the power; a path that forgets to switch one off shows only after certain histories", "anchors": ["src/HPWH.cc:326-379 runOneStep", "src/HPWH.cc:384-510 runOneStep", "src/HPWHHeatSource.cc:250-262 engageHeatSource, disengageHeatSource", "src/HPWH.cc:2659-2679 turnAllHeatSourcesOff, areAllHeatSourcesOff"]}
