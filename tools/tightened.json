{
 "perTeV": [
  "C33_units"
 ],
 "syncCS1": [
  "C70_documented"
 ],
 "syncEc": [
  "C70_documented"
 ],
 "Gtilde": [
  "C70_documented"
 ],
 "monoKernel": [
  "C71_monochromatic"
 ],
 "nuclearFactor": [
  "C73_spectrum"
 ],
 "PionModel.spectrumLUT": [
  "C21_spectrum_table"
 ],
 "PionModel.eval": [
  "C21_spectrum_full"
 ],
 "buildDataTable": [
  "C38_build_faithful"
 ],
 "startPoint": [
  "C47_all_parameters_varied"
 ],
 "fitterDoFit": [
  "C56_auto_update"
 ],
 "blobSamples": [
  "C52_blobs"
 ],
 "photE0": [
  "C71_arguments_partial"
 ],
 "photDens": [
  "C71_arguments_partial"
 ],
 "sizeOf": [
  "C71_arguments_partial"
 ],
 "thetaOf": [
  "C71_arguments_partial"
 ],
 "shSeeds": [
  "C57_inverse_compton"
 ],
 "keV": [
  "C57_flux"
 ],
 "allclose": [
  "C77_used_unchanged_iff"
 ],
 "cornerFile": [
  "C86_files_partial"
 ],
 "formatUsed": [
  "C87_format"
 ],
 "metaTable": [
  "C87_format"
 ],
 "pyInt": [
  "C96_electron_limits"
 ],
 "cbrt": [
  "C70_cube_root"
 ],
 "centroid": [
  "C47_moves"
 ],
 "shrinkPt": [
  "C47_moves"
 ],
 "blobValue": [
  "C87_mixed_blobs"
 ],
 "UBlob.forget": [
  "C87_mixed_blobs"
 ],
 "fileSuffix": [
  "C54_accepted_names"
 ],
 "energySed": [
  "C94_sed_value"
 ],
 "squareable": [
  "C94_false_seed_table"
 ],
 "FitterArgs.eUnit": [
  "C95_units"
 ],
 "FitterArgs.fluxUnit": [
  "C95_units"
 ],
 "uMeV": [
  "C100_defaults_bremsstrahlung"
 ],
 "uPeV": [
  "C100_defaults_pion"
 ],
 "initProton": [
  "C100_parameters"
 ],
 "blobAt": [
  "C66_missing"
 ],
 "SeedNum.scalarErr": [
  "C12_false_ic_scalar_kind"
 ],
 "cAlpha": [
  "C71_si_constants"
 ],
 "nmConverged": [
  "C47_success_accuracy",
  "C47_stops_at_once"
 ],
 "plotDataToAx": [
  "C80_units_refused"
 ],
 "MeV": [
  "C57_bremsstrahlung_partial"
 ],
 "npLE": [
  "C25_false_negative_energy"
 ],
 "storeIn |   | .intArray, _ => fin (-9223372036854775808)": [
  "C65_false_integer_nan"
 ],
 "plotChainFunc | if n = 0 then .error .zeroDivisionError": [
  "C112_no_walkers"
 ],
 "cornerColor": [
  "C115_mark_colour"
 ],
 "shIndex": [
  "C114_limits"
 ],
 "shRef": [
  "C114_limits"
 ],
 "shCutoff": [
  "C114_limits"
 ],
 "shBeta": [
  "C114_limits"
 ],
 "initBremsstrahlung |     (\"nEed\", nv 300)": ["C100_bremsstrahlung_grid"]
}