#!/bin/bash
# Regenerates lean/Verif.lean and MANIFEST.json.
cd /verif/lean && for f in $(cd Verif; ls */*.lean | sed 's/.lean//'); do echo "import Verif.${f/\//.}"; done > Verif.lean
cd /verif && python3 mkmanifest.py
python3 mkdesign.py "$@"
