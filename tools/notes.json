{
 "C01": {
  "note": "all pairs, both directions"
 },
 "C03": {
  "note": "exact inverse refuted (C03_inverse_violated); the drift law is proved in full"
 },
 "C04": {
  "note": "exactness refuted, tolerance proved"
 },
 "C12": {
  "note": "strictly decreasing for all pairs at least 0.1 m apart and for all pairs inside the blocks below 20 km, 20-47 km, above 47 km; the unrestricted claim is refuted across 20 km and 47 km"
 },
 "C13": {
  "note": "as C12 for density; block monotonicity for every offset from -100 K, refuted at 20 km for every offset, at 47 km on the standard day and inside the first layer at -200 K; offset laws in full"
 },
 "C14": {
  "note": "all altitudes from -5 km upwards, all offsets with positive temperature"
 },
 "C15": {
  "note": "exact if and only if the altitude is outside four bands whose ends are bracketed; within 0.1 m everywhere; refuted inside the bands"
 },
 "C16": {
  "note": "exact if and only if the altitude is outside three bands; within 0.1 m everywhere; lists raise when an element is in 11-20 km or above 32 km"
 },
 "C82": {
  "note": ""
 },
 "C10": {
  "note": "negative runway numbers are refuted separately"
 },
 "C17": {
  "note": "limiting refuted for every out-of-range query"
 },
 "C18": {
  "note": "positivity refuted for every negative airspeed"
 },
 "C19": {
  "note": "ISA ordering for temperature offsets of -100 K and above"
 },
 "C20": {
  "note": "failure above Mach 1.7 shown by witness"
 },
 "C25": {
  "note": ""
 },
 "C26": {
  "note": ""
 },
 "C27": {
  "note": "the announced positivity and ordering is refuted for exactly the named profiles and proved for all others"
 },
 "C31": {
  "note": "includes the loss of characters with mixed line endings"
 },
 "C83": {
  "note": "refuted for every list of two or more altitudes"
 }
}