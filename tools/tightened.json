{
 "geo1": {
  "tightened": [
   "C09_box",
   "C40_exact",
   "C42_valid"
  ],
  "note": "C40 survived: the statement used the model's own box. It now uses Spec.boxOf, and C09_box pins the box. See geo1r."
 },
 "geo7": {
  "tightened": [
   "C09_box"
  ],
  "note": "C09 survived; see geo7r"
 },
 "geo12": {
  "tightened": [
   "C39_key_resolution"
  ],
  "note": "nothing failed; C39_key_resolution was added. See geo12r."
 },
 "pt6": {
  "note": "stopped early by the harness; see pt6r"
 },
 "cfg3": {
  "note": "caught by C25, not by C24 as guessed"
 },
 "hd3": {
  "note": "caught by C26, not by C20 as guessed"
 },
 "cfg2": {
  "note": "stopped early by the harness; see cfg2r"
 },
 "pt13": {
  "note": "stopped early by the harness; see pt13r"
 },
 "wr2": {
  "skip": true
 },
 "wr9": {
  "skip": true
 },
 "wr34": {
  "skip": true
 },
 "wr10": {
  "note": "caught through C26 (the header check); C53 speaks of complete files only and is not affected"
 },
 "cr4": {
  "note": "harmless control: only proofs that follow the definition step by step fail; no claim is false"
 },
 "li4": {
  "tightened": [
   "C70_make",
   "C70_file"
  ],
  "note": "only C65_refused_violated failed: no theorem said that a FileWriter starts with an empty file. C70 (file constructors) was added."
 },
 "li7": {
  "tightened": [
   "C70_make",
   "C70_file"
  ],
  "note": "no claim failed: the layout of a FileWriter's file was not stated. C70 was added."
 },
 "h8": {
  "tightened": [
   "C96_copc"
  ],
  "note": "no claim was false of the edited program: nothing said where the info VLR must be. C96 (files that are refused) was added; C96_copc fails."
 },
 "g7": {
  "note": "harmless control"
 },
 "g8": {
  "note": "harmless control"
 }
}