{
 "C03": "Error bounds of free operators proved; refuted for compound operators and double/ThermoScalar, witnesses given, rest partial. Error of exp and pow proved; log and sqrt refuted.",
 "C04": "",
 "C08": "FIFO order proved; the documented least-recently-used order is refuted and capacity 1 never hits.",
 "C09": "Refuted: cached answers are served after the database or preferences change; partial for histories without change.",
 "C10": "Refuted: default-valued first key hits the empty cache; a throwing call leaves a wrong pair. Partial for other histories.",
 "C11": "Refuted: pressure is not written back on a cache hit; reference keys dangle. Partial for live unshared keys.",
 "C56": "Points of the range loop proved exactly; refuted: overshoot beyond the maximum, divergence for step <= 0.",
 "C57": "Refuted when a query rewrites P = 0; partial otherwise.",
 "C58": "Refuted for unknown names (columns shift); partial when all names are known.",
 "C59": "Refuted for incomplete grids and saturation pressures; partial for complete grids.",
 "C60": "Effect, termination and absence of the separator proved for non-empty separators without underscore; refuted for the others.",
 "C61": "Refuted: outputs alias the batch; partial for reading the latest output.",
 "C66": "Refuted: copied memo closures share the cache but not the usage list, so the bound fails; proved: answers stay correct and the cache never exceeds 2*max+1 entries.",
 "C67": "Refuted: a copied engine answers from the original; partial without copies.",
 "C15": "Raises on unknown units and never undefined on well-formed expressions: proved. 'Number iff same dimension' proved except for dimensionless names, non-kelvin temperatures and half powers, where it is refuted (m/m vs 1, K^0.5 vs m/m, degC not transitive).",
 "C17": "Refuted: empty string, leading operator and empty parentheses are undefined behaviour; 'kg(m)' is accepted as g. Partial: all other strings give a number or an exception.",
 "C18": "Refuted for bar^2..bar^4 (defined as powers of K); proved for every other whole power.",
 "C21": "Consistency proved for reactions with logK coefficients only; refuted when both kinds of coefficients are given (Cp not dH/dT) and when coefficients are missing (read past the end); definedness characterised exactly.",
 "C22": "EK3 fully proved, EK2 when the reference Cp is zero; refuted: EK2 reports a Cp it does not use, missing H is derived at the current T, EK1 reports H = G.",
 "C23": "Downgrade characterised for all data; refuted: known H = 0 selects constant-G with an unknown G.",
 "C24": "Refuted: with Cp coefficients only, reported H and S never change with T; partial: G = H - TS and reported Cp.",
 "C25": "Round trips proved for all temperature-dependent coefficients and the enthalpy constant; entropy constant exactly when K4 = 0; refuted otherwise (K[4]/TK*TK).",
 "C68": "Proved for two- and three-term methods; refuted for the one-term methods and for LGK.",
 "C69": "U = H - PV and A = U - TS proved for the logK models with the reference enthalpy given, Frantz-Marshall and Dolejs-Manning; refuted for a zero enthalpy and for Ryzhenko-Bryzgalin (volume unit).",
 "C26": "All three models: Gibbs relation, derivatives, volume and equilibrium constant consistent along any smooth density function.",
 "C27": "Frantz-Marshall and Ryzhenko-Bryzgalin compute the declared formula; refuted for Dolejs-Manning (computes Frantz-Marshall) and for log K (left undefined).",
 "C19": "Round trip proved for all equations with admissible distinct names; refuted for names a coefficient runs into (2 E1), names starting with other characters, and re-used reaction objects.",
 "C20": "Refuted: the last occurrence overwrites; species occurring once are right.",
 "C29": "Integrals proved exact for all ten coefficients; refuted for the reported Cp when the tenth coefficient is nonzero (integer division 1/2); partial when it is zero.",
 "C31": "Refuted at the upper end of the last interval, in gaps, without intervals, with too few transitions; partial for complete adjoining tables elsewhere.",
 "C32": "Refuted for coefficient lists of different length (array not cleared); partial for lists of one length.",
 "C33": "Constant volume proved; refuted for the ideal gas (V(P-Pr) instead of the integral); partial for the other identities.",
 "C34": "Refuted: powers of T-Tr replaced by Tr^2; partial when the second and third volume coefficient are zero.",
 "C35": "Proved everywhere but at the reference point, where G jumps (refuted there).",
 "C70": "Refuted for both volume and heat capacity, with explicit families of witnesses.",
 "C71": "Refuted: Berman at the reference point and the constant-volume model without volume leave U and A untouched; partial: all other cases.",
 "C37": "dG/dT = -S, dH/dT = Cp, dS/dT = Cp/T, A = U - TS proved for both implementations, also at the entry points from solvent density and dielectric function; refuted: dG/dP = V (unit factor 4.184/4.184004 between G and V) and U = H - PV (P in bar).",
 "C38": "Proved for the reaktoro implementation, all derivatives; gems refuted (wTP is never set), partial for w, wT, wP, wTT.",
 "C72": "Proved for the reaktoro implementation; gems refuted (sign of dg/dP wrong above 1000 kg/m3, wPP and wTP never set), partial below 1000 kg/m3 for the derivatives it sets.",
 "C74": "Refuted: the reference Born functions Z and Y differ; volume and heat capacities agree, explicit difference for G, H, S.",
 "C39": "All derivatives and energies proved for every Helmholtz function when densityT is nonzero; refuted at a density maximum (densityTT divides by densityT = 0). Instantiated with the two equations of state: with Wagner-Pruss a density solution exists and is consistent around every regular state; with Haar-Gallagher-Kell all but densityTT and densityTP, which are refuted.",
 "C76": "Refuted: the residual is tested before the last Newton step; proved: the step after the first iterate with residual below 1e-8 among 100 is returned, with a quadratic bound on its residual, else an error.",
 "C77": "Refuted: waterPressureWagnerPruss evaluates HGK; HGK proved.",
 "C78": "Equal if the last tested iterate is a root; in general the carried derivatives are those reported for the last tested iterate plus the missing pressure times a bounded factor. At 298.15 K and 1 bar (search evaluated with verified intervals) the carried pressure derivative exceeds the reported one by 8e-34, relative 2e-27: strict equality fails, without consequence.",
 "C79": "Proved for Wagner-Pruss; refuted for HGK (273.15 K used as triple point), with the exact deviation for all data.",
 "C80": "Proved for every smooth density where the four temperature polynomials and the compressibility do not vanish; refuted at a root of a polynomial (quotient k'/k).",
 "C81": "Second-order accuracy proved for TC > 0 and P > 0; refuted at 0 degC and P = 0 (0/0), for the mixed derivative, U and N (never set) and the unit of epsilonP (1/bar).",
 "C82": "Newton slope and fugacity relation proved; density derivatives proved except densityPP (refuted: factor 1e-5 instead of 1e-10).",
 "C41": "By symbol and by record, after any history of queries, failing ones included.",
 "C42": "Values and both derivatives of Cp, G, H, S, V; ln K, log K; reversal when the engine gives the same answers for the species (see C45).",
 "C43": "Refuted: U, A and Cv are overwritten in every round of the loop; partial: they are the sum exactly when the contributions of all species but the last cancel.",
 "C44": "Proved without the fallback and when no constant-volume correction follows; refuted with that correction (reacDCthermoProperties:647-652).",
 "C45": "Refuted in three ways (cached gas properties, flag left on by a failing reaction or by a record without methods, solvent symbol); proved for databases with H2O@, without gas models and without circular definitions.",
 "C46": "Refuted: a record marked REACDC that names no reaction recurses without end; proved with an explicit depth bound for databases without such records and without circular definitions.",
 "C84": "Refuted when a species defined by a reaction comes first; proved when the species have methods of their own and do not use Akinfiev-Diamond.",
 "C47": "For substances with methods of their own (not Akinfiev-Diamond): by record, in any state of the engine.",
 "C48": "Proved without the fallback for substances with methods of their own; refuted with the fallback, which comes after the conversion.",
 "C49": "Refuted for 11 pressure, 24 temperature and 19 general codes; proved for the codes with a model: EOS, then T, then P, each once.",
 "C65": "Characters above 127 are not changed (C locale).",
 "C85": "Refuted for queries by symbol (cached value); proved for queries by record for substances with methods of their own.",
 "C86": "Refuted for d lnK/dT from the species (less by G/(RT^2)) and for dG/dP with constant volume (0 instead of V); proved for d lnK/dP.",
 "C87": "Refuted for ln K, which is not corrected; the other relations are proved for every reaction with a logK(T) function.",
 "C88": "Refuted for reactions with the solvent, which is not converted; proved for reactions of other substances with methods of their own, on a new engine.",
 "C50": "Proved for all operation sequences on the three maps, including references to records taken before and used after.",
 "C52": "Proved for every file: records are applied in order up to the first that raises, those before are kept. Refuted: a malformed name or label does not raise.",
 "C53": "Proved after construction, add, set and an append that does not overwrite elements or fail; refuted: elements overwritten by appendData keep their old data in formulas, and a failing append leaves the table behind; an element created by element(symbol) that the element table lacks is unknown to formulas.",
 "C54": "Proved for substances; refuted for elements of different valence; proved for elements whose valence is determined by symbol, name and class, and no element is lost from their formulas.",
 "C62": "Proved for all lists of documented codes except 41 and 42, which are refuted (silently ignored); proved for all reaction codes.",
 "C63": "Proved for complete element records; refuted: entropy leaks into heat capacity, mass into volume; missing entropy and molar mass are indeterminate.",
 "C90": "Proved for every file and database.",
 "C91": "Lists without units, with all units and with some units proved; refuted: a third HKF unit of (cal*K)/mol discards all stated units.",
 "C89": "Proved for the mistaken units of the shipped databases; refuted for the right unit 1/K: the expansivity is then 1e5 times too small and the Murnaghan model ignores it.",
 "C92": "Proved for substances with documented methods other than 41 and 42, for reactions and for wrapped records; elements when all four numbers are present (C63). Refuted: the coefficients of the Berman, Birch-Murnaghan and Churakov-Gottschalk models are never read, so substances that declare the first two raise an error at every state.",
 "C64": "Proved for the check of substances and, except for ln K and log K, of reactions: silent within the limits, one message per computed property outside, no number changed. Refuted: limits of pressure are never read from records, so every pressure is reported; the reaktoro HKF model compares degrees Celsius and bar with K and Pa; the equilibrium constant of a reaction gets no message.",
 "C51": "Proved for programs of any length over databases, record objects and references: they observe what they would if each variable held its own value. Addresses of destroyed objects are not reused in the model; references are used only while their record is there.",
 "C93": "Proved for all states off the critical density: everything except fTTT, whose ideal part has a wrong factor (refuted at low density for every temperature; fTTT is not used elsewhere in the library). At the critical density the code divides zero by zero.",
 "C94": "Proved for first and second derivatives, fTTD and fDDD. Refuted: fTDD (a factor x missing in part 2, theta_r for theta_t in part 4) and fTTT (F/t^2 for 2F/t^2 in part 2) at 647.27 K and 693 kg/m3.",
 "C95": "Proved for both equations.",
 "C96": "Proved for all parameters and all consistent water, except that dG/dP = V needs one molar mass: the model has 18.01528, the water properties 18.015268 g/mol (refuted for every solute with xi other than 1).",
 "C97": "Anderson: everything proved but H (off by T (S - S298)) and V (constant), refuted. Holland-Powell: dG/dP = V proved; S = -dG/dT refuted at all temperatures but 500 K (wrong sign of the ln rho term above, extra term below), H refuted.",
 "C98": "Proved for all density models of reactions, log K (all methods unless only Cp coefficients are given), first-interval Cp integration, constant volume, ideal gas, Berman and Murnaghan off the reference state, Landau off the transition, both HKF, Anderson, Holland-Powell above 500 K, G, V, Cp of Akinfiev-Diamond, and G, Cp, U, A of the gases PRSV, SRK and PR78. Refuted for constant Cp (reference temperature carries a derivative), Cp integration beyond the first interval, Berman at the reference state, log K from Cp coefficients, Holland-Powell below 500 K, S and H of Akinfiev-Diamond, V, H and S of the three gas models (H and S short by exactly the residual Cp and Cp/T), and V of the CORK and STP fluids where they are ideal gases. At the critical temperature both Peng-Robinson models return NaN. Anywhere else H and S carry their derivatives exactly if the residual H and S have derivative 0 (also with several volumes); for Peng-Robinson-Stryjek-Vera with κ₁ ≠ 0, κ₂ = 0 below the critical temperature they never both do. Missing: whether they can with κ₂ ≠ 0.",
 "C99": "Exact where one real root exists away from the inflexion point; three roots within 7e-8 of the scale. Refuted: root at the inflexion point (NaN), double roots (only one of two returned), three roots (pi literal).",
 "C100": "Equation of state solved exactly with one real root and, with three, when the least is the stable one; within the solver's error when the greatest is. Smallest fugacity among the candidates proved. Violated where the root is the inflexion point: NaN.",
 "C101": "Proved for both equations where the cubic has one real root, and where it has three and the least is the stable one. Stable vapour beside two other roots missing (the literal for pi moves that root).",
 "C102": "Proved with one real root, T different from Tc, and k1 = 0 (PRSV) or 1+k(1-sqrt Tr) positive (PR78). Refuted: T = Tc (NaN), PRSV with k1 other than 0 below Tc, PR78 far above Tc where the sign of a square root flips.",
 "C103": "Proved for SRK, PR78 and PRSV with k1 = k2 = k3 = 0. Refuted for PRSV with k1 (sign error in d2a/dT2) and with k2 (ignored in da/dT).",
 "C104": "The values returned are proved: H and S get their residuals, V is set, G and Cp are left as they were. Refuted: G = H - TS, dH/dT = Cp (residuals not added to Cp), dG/dP = V for both options.",
 "C105": "Proved: Birch-Murnaghan with fewer than eight coefficients, Holland-Powell and empty Akinfiev-Diamond lists raise an error. Refuted: one or two Akinfiev-Diamond coefficients, fewer than seven critical parameters, no temperature interval ; eight Birch-Murnaghan coefficients (undefined behaviour).",
 "C106": "Proved where the slope of the pressure varies by a factor of two at most between the start and the solution; with the third-order equation and K' >= 4 for every start below the solution, as the start of the program is but for the reference pressure, with an error that depends on the ratio of the slopes. Missing: K' < 4 with strongly varying slope (50 steps are not always enough).",
 "C107": "Proved: the derivative and the insensitivity. Refuted: the increment is not zero at the reference pressure, since the reference pressure is multiplied by the volume at zero pressure (v(T)), taken as the volume at the reference pressure.",
 "C108": "Proved: G = H - TS, U and A. Refuted: the new volume is added to that of the record, so compression doubles it; dG/dP = V; dG/dT = -S.",
 "C109": "Proved for every engine with the default solvent present, no gas models and no circular definitions (the conditions of C45).",
 "C110": "Proved, with the modelled heat capacity and volume models plugged into the engine; the tenth coefficient must be zero in the interval (see C29).",
 "C111": "Proved for no pressure method and constant volume. Refuted for the volume functions: their result, a default-constructed record, replaces everything.",
 "C112": "Proved, by composing C92, the loading of files (C52, C90) and C110. The entropies of the elements in formulas are a parameter, as the formula parser of ChemicalFun is not in the repository.",
 "C113": "Proved for every fluid with positive critical temperature and pressure.",
 "C114": "Proved where the cubic has a single real solution: CO2, H2O above 695 K, vapour and liquid below, equality at saturation. Refuted for the liquid at very high pressure: where two of three real roots are negative the code takes a negative one and the result is NaN. Missing: the rest of the region of three real roots.",
 "C115": "Proved for CO2 up to 5 kbar and for H2O vapour. Refuted: H2O above 695 K (sign of da/dT), CO2 above 5 kbar (virial part left out of H and S). Missing: three real roots, the liquid.",
 "C116": "Continuous above 695 K. Refuted at 695 K, where the code changes polynomials that meet at 673 K.",
 "C117": "The values returned are proved, and that pressure 0 is 1 Pa. Refuted wherever phi is not 1: H and S get residuals, G does not.",
 "C118": "Proved for all modelled pressure models (constant volume, Murnaghan, Berman, Birch-Murnaghan, all gas equations of state). Refuted: three documented methods run no pressure model.",
 "C119": "Proved for both fluids in the whole range of the code except H2O at one temperature, where the code divides by zero (refuted).",
 "C120": "Proved at the exact density; that of the code is off by a bounded amount where the slope of the pressure varies by less than half, with an error of the second order in G. Missing: convergence elsewhere.",
 "C121": "The values returned are proved. Refuted: G is not corrected; other formulas and temperatures outside 200-2000 K read variables that are not set.",
 "C122": {
  "status": "partial",
  "note": "Refuted for every record: twelve elements are read of an array of seven."
 },
 "C123": "For every density that solves the equation of state of the code, with an example at 298.15 K checked by verified interval arithmetic.",
 "C124": "Proved after removing an explicit error: the constant 28.16666667 in the base function of the Helmholtz energy is not (alpha+beta+1)/2 as in the pressure. Refuted at a concrete state (and at every state, G_not_volume).",
 "C125": "Proved for T <= 522 K or T >= 758 K. Refuted at 641 K and 0.33 g/cm3, where the value has the wrong sign: the 38th term divides by the reference density instead of the reduced density.",
 "C126": "Z, Y and Q proved within the range of the Born functions; X for T <= 522 K or T >= 758 K. Refuted at 641 K and 0.33 g/cm3 for X, which inherits the error of dAldT (C125).",
 "C127": "Proved for searches that succeed, and that the loop ends. Refuted: at 298.15 K and 10 MPa from the guess 0 (the vapour guess of calcv2) the search ends, unreported, at a density with a pressure below -90 MPa. The kernel follows the 11 rounds on intervals.",
 "C128": "Proved when the two inner searches of the last round succeed and the vapour is not thinner than 5e-7 g/cm3; termination is not proved. Example at 298.15 K followed by the kernel on intervals.",
 "C129": "Proved for the liquid (state 0) of compressed water below 369.85 C when the search succeeds, including second derivative of the density (outside 522-758 K), speed of sound and Cp-Cv. Refuted for state 1 at 25 C and 100 bar: density 54 kg/m3 and negative compressibility, computed from the liquid density and vapour functions.",
 "C130": "Proved that epsilonT, epsilonTT (away from the temperatures of C125) and epsilon^2 bornQ are derivatives; epsilonP is the derivative per bar, so refuted per pascal (factor 100000).",
 "C131": "Proved with the factor 4.305816*4.184/18.015268, which is 1 to 2e-5; refuted with the factor 1 at 298.15 K.",
 "C132": "Proved for both phases below 369.85 C when pcorr ends; the pressure handed out is that of the liquid density. Refuted: the pressure handed back is that of the fit PsHGK, above the one handed out (25 C).",
 "C133": "The inner loop counter is not reset, so only the terms without 1/T - 1 are summed. Proved: the exact factor by which the value is off, and agreement at the critical temperature. Refuted at 25 C: the formula gives more than 16 times the viscosity.",
 "C134": "Same loop error as C133. Proved: what is computed, and agreement at the critical temperature. Refuted at the density maximum of water: 15 percent too small.",
 "C136": "Proved below and above the critical temperature for requested states -1, 0, 1, 2. Refuted at 647.096 K (start at the critical density, where delta - 1 = 0 is divided by) and for a requested state 3 (start 0).",
 "C137": "All laws at constant pressure proved through the whole engine; dG/dP = sum of nu kappa V with kappa = 4.184/4.184004 for solutes (two calorie constants in the code). Refuted for solutes with V not 0.",
 "C138": "Proved for the density that solves the equation of state; missing: the search of the program ends before the root (C78). Example: liquid water at 298.15 K and 1 bar, density located to nine decimals by verified interval arithmetic; the check values printed with IAPWS-95 at 500 K are reproduced to the last digit.",
 "C139": "Proved for every equation of state given as a smooth Helmholtz function; example: liquid water at 298.15 K and 1 bar, three tests, evaluated with 130 digits.",
 "C140": "Exact identities. At 298.15 K and 1 bar the pressure missing is 2.3e-23 Pa.",
 "C141": "Proved above the critical temperature and pressure; missing: that the density found belongs to the pressure (20 rounds at most), pressures up to the critical one. Refuted on the whole part of the region between 646.5 K and the critical temperature above the critical pressure: density 0 for the liquid, energies 0 for the other phase.",
 "C142": "Proved from 643 K to 0.0001 K below the critical temperature (16 steps suffice). Refuted at the critical temperature (within 1e-7 K): the loop of LVSeqn never ends, its flag is set and never cleared.",
 "C143": "Equal Gibbs energies proved exactly; Clausius-Clapeyron to 18 ppm and 1e-5 J/(mol K) with the derivative of the saturation pressure at the temperature asked for. Refuted exactly (643 K to 645 K): entropies per 18.015534 g, volumes per 18.015268 g.",
 "C144": "Proved for a request followed by writing its file, after anything, pressures other than 0. Refuted: units set between request and writing change the heading but not the temperature written; vectors and single numbers ignore the units; the class comment asks for degrees Celsius and bar, a new object takes kelvin and pascal.",
 "C145": "Proved for every program while no writing of that output has raised. Refuted: after one that raised, the next returns and writes nothing (the stream is still open).",
 "C146": "Proved for the files of substances and of the solvent, programs that open only what is closed and write only to what is open, symbols without comma. Refuted: electric properties (bornX written twice, 16 cells under 15 headings), writing before opening (no headings), opening again without closing (rows lost), commas in symbols, folder of a program called without a path.",
 "C147": "Proved: lists complete, every line JSON, values filled in are read for all methods of reactions and all but eight of substances. Refuted: eight methods whose key the parser does not know; three equations of state of gases offered without the critical parameters they read (undefined behaviour).",
 "C148": "Proved exactly: sequences without a temperature and pressure asked for in two requests are answered with the values of the calculation; all others have undefined behaviour (refuted for every calculation). Caches with fewer than 1000000 entries.",
 "C149": "Proved for 232 of the 243 names against an independently written table. Violated for the tesla, its spellings and the gauss (defined as Wb*m2) and for bar^2 to bar^5 (defined as powers of K), whose conversion to their own SI expression is refused; an acre is not 43560 of the table's square feet. The three fractional powers are not covered here (C15, C18).",
 "C150": "Proved exactly for whole multiples of a power of two (up to 2^53 of them); for all other numbers n + 1 or n + 2 points with an explicit error bound. Refuted: from 0 to 1 in steps of 0.1 gives twelve points, the last 1.1; from 2^53 in steps of 1 the loop never ends.",
 "C151": "Proved for pressures with few binary digits (whole bars, halves, ...); a bound of six parts in 2^53 per preceding symbol for all pressures. Refuted at 16.9 MPa (second symbol computed at another pressure) and 10.7 bar (another pressure reported).",
 "C152": "Proved: decimal number with the digits set, off by half a unit of the last digit at most, order kept, one cell. Refuted: 298.15 K stands as 298.1 by default; every volume below 0.0005 is written 0.000.",
 "C153": "Proved for every pressure other than 0, all queries, without Akinfiev-Diamond records and as far as the gems water code leaves the pressure alone; at pressure 0 for orders that evaluate the solvent first. Refuted at pressure 0: left to right and right to left give different G for a solute.",
 "C154": "Proved for water (Wagner-Pruss, HGK of reaktoro), for solutes whose pressure is read after the solvent, and for reactions led by such species. Refuted for a solute with arguments from left to right, and for every order for a reaction in which a mineral comes before water in the map. Missing: gems water code, Akinfiev-Diamond.",
 "C155": "Proved through the engine for solids of constant volume, Berman's and Murnaghan's, whose reference temperature is in the first interval, also with a Landau transition without transition volume; for G, H and S of ideal gases; for Anderson's solutes; for S, V, Cp of Holland and Powell's and G, H, S of Akinfiev and Diamond's. Refuted: reference temperature in a later interval, volume of Birch-Murnaghan solids, Landau transitions with a transition volume, G and H of Holland and Powell's solutes, the volume of ideal gases (R T / P, not the recorded one). Real gases keep the recorded G but get residual H and S: H − T S is off by R T ln φ in every state with a root above the covolume, above or below the critical temperature, so the recorded H and S are lost wherever the fugacity coefficient φ is not 1 (that it is not, is proved for gases above the critical temperature at low reference pressure and for a liquid). The same for CORK and Sterner-Pitzer fluids. HKF solutes are the subject of C73. Records whose reference temperature is the critical one get NaN from both Peng-Robinson models. Missing: records for which the cubic solver itself fails (C99).",
 "C156": "Proved for every query of the engine and every addition when the solvent of the preferences is in the database, and for the order of records in files. Refuted without that solvent: the engine takes the last solvent of the database. Missing: exceptions (only answers are compared), and reactions asked for by an equation that is the symbol of an added record.",
 "C157": "Proved from the text of the equation to G, H, S, Cp, V and ln K, with spelling, reverse and multiples, after any history. Refuted for species that occur twice, names that look like exponents, and U, A and Cv: these are the contribution of one species and right only if those of the others cancel. Missing: gases.",
 "C158": "Proved for both implementations with continuous solvent data, also across the lines where the g function changes. Refuted with the gems dielectric code: it returns zero Born functions above 5000.001 bar, and G jumps there. Missing: points where the program divides by zero (1000 kg/m3, zero expansivity); gems above 1000 kg/m3.",
 "C159": "Zhang-Duan: refusal above the range and in pressure, and the error of the volume, proved; refuted: negative volume at 300 K and 2.156 GPa, lower limit of temperature ignored. gems: refusal outside the range and none within proved from the triple point pressure on; refuted: lower pressures are replaced by the saturation pressure, permittivity zero above 5000 bar. Missing: that the searches succeed.",
 "C160": "Agreement with the engine that takes the pressure by value (Model/Engine.lean), and the pressure kept, proved for all queries that answer, and for errors if no record uses WaterHGK; with caches and after other queries; for sequences that share a variable. Refuted: after an error WaterHGK leaves the pressure in bar; a pressure below 611.732 Pa is replaced by that of saturation.",
 "C161": "Proved for all exports but nineteen that some call succeeds, and that no call of the nineteen does; that a call without empty lists reaches the function it fits, in any order of definition; that an integer prefers an argument of type int to a double, in any order; that objects handed out stay valid unless taken with element, substance or reaction. Refuted: methods, classes and states of records cannot be set or read (enumerations not registered); empty lists are ambiguous; the loggers have no default arguments; references outlive their database. Arguments by position only; rules of pybind11 as documented.",
 "C162": "Proved for G, H, S, Cp, V, ln K and log K over any cycle of reactions asked for as records, by symbol or by equation, after any history. Refuted for U (overwritten by the last species, C43). Refuted for G with gases: a species defined by a reaction switches the pressure correction off for the gas after it (C84), so the cycle of such a species, a gas and a mineral does not close at any pressure other than 1 bar. Missing: cycles with gases but without such species; reactions with methods of their own.",
 "C163": "Proved for databases filled by reading: every text describes its record, the copy by texts is the same, and a setter breaks this unless it sets what is there. Refuted for edited records, records made in code (their empty text ends the reading silently), elements set from text (valence), texts with _label inside. The element table and conventions are in no text. Writing JSON and parsing it is taken as identity.",
 "C164": "Proved for formulas that parse to integer charges. Refuted: warnings name the new charge twice, fractional charges are cut off and warned of forever, a formula that fails leaves half of the substances changed. The formula parser (ChemicalFun) is a parameter.",
 "C165": "Proved: for one real root and A + B up to 1/20 the volume and ln φ deviate by at most 2(A+B) and 6(A+B); for A + B up to 1e-7 with any number of roots and a ≤ 18 bRT, up to the error of the literal for π; the switch at 1e-5 bar stays within the bound. The residual G, H, S and Cp are at most K P below some pressure where the cubic has one real root, which is so for 1.2 bRT ≤ a ≤ 5.8 bRT. Missing: three real roots for larger A + B, and the residual properties with three real roots. Refuted: at 1e5 bar and above, and below the lower temperature at any pressure, the gas is ideal again, with volumes below the covolume.",
 "C166": "Proved: Peng-Robinson and SRK with one real root; the choice among three exact roots never takes the middle one (the roots the code computes carry the error of its literal for π); Murnaghan while the bulk modulus is positive. Exact Birch-Murnaghan volumes with the third-order equation and K' ≥ 4. CORK: CO2 with one real root up to 1195 K, H2O above 695 K up to 2 kbar, other gases between 8.27 and 14.3 critical temperatures. Missing: other Birch-Murnaghan solids, the STP equation. Refuted: above 6965 K the Murnaghan bulk modulus is negative and minerals grow under pressure; the Berman volume passes a minimum (120 kbar for quartz) and grows beyond; CORK: hydrogen has a negative volume at 1000 K and 40 kbar, methane grows between 40 and 60 kbar at 300 K, and H2O grows just above 2 kbar at every temperature above 695 K.",
 "C167": "Proved for every property whose species have no value of exactly 0 with an uncertainty, ln K and log K for G other than 0, and for substances defined by a reaction. Refuted: a species with 0 ± σ contributes nothing; ΔG = 0 ± σ gives ln K without uncertainty; the reaction that defines a substance, computed back from its species, has a larger uncertainty than its record.",
 "C168": "Proved: errors with paths up to 45 characters and one-line texts can be read back whole and are distinct, the frame covers the text, longer paths keep their last 45 characters; the loggers do exactly what was asked, the last call wins. Refuted: long paths, line breaks, the documented location, missing records (no file), Zhang-Duan out of range (line never set), the place in the log, console and file at once, a file that cannot be opened. Missing: the texts of numbers inside reasons.",
 "C169": "Proved through the engine: dG/dT = -S and G = H - T S with any transition, and dG/dP = V and dH/dT = Cp for transitions without volume. Refuted: dG/dP = V with a transition volume, and dG/dT and dG/dP at the reference point of every such record, where G jumps and has no slope.",
 "C170": "Setters and getters: proved for every sequence of setters. The equation: proved for a reaction whose former reactants all occur in the new equation, new reactions among them. Refuted: fromEquation keeps every former species the new equation leaves out; setEquation and setReactants do not change each other.",
 "C171": "Above 1.0001 Tc one volume at every pressure, below 0.99 Tc three volumes at some pressure, and the program returns the one volume above Tc where the attraction is at least 1.2 b R T + 2 b² P and the root is not the inflexion point. Missing: the temperatures between, acentric factors outside −0.22 to 0.34; violated for an acentric factor of 1 at 8000 K and, with NaN, at the pressure whose root is the inflexion point.",
 "C172": "Proved away from the critical temperature for all records. Refuted: PRSV with k1 ≠ 0 has a jump of H and S at the critical temperature for every record and pressure with a single volume, and both Peng-Robinson models return NaN at the critical temperature itself; at the lower temperature limit of a record all three models jump from the ideal to the real volume, for every record. H and S jump there too, wherever the fugacity coefficient is not 1, also with several volumes and for CORK and Sterner-Pitzer fluids. Missing: pressures at which the equation has several volumes, where phases change."
}