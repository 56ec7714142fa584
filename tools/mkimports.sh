cd /verif/lean
for d in Model Spec Lemmas Props; do for f in Verif/$d/*.lean; do [ -e $f ] && echo "import Verif.$d.$(basename $f .lean)"; done; done > Verif.lean
