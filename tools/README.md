# Generator scripts

These scripts wrote the large Lean files about the SQL parser.  Nothing in the proofs depends on them: the files they
wrote are in `lean/Verif`, and what the annotations claim about the tables is checked there.  They are kept for
auditing the transcription of `src/sql/parser.rs`.

* `ext.py` reads the reduce functions and actions of `src/sql/parser.rs`.
* `gentab.py` wrote `Model/SqlParserTables.lean`; `genact.py` wrote `Model/SqlParserActions.lean`.
* `lr1.py`, `weights.py`, `prodorder.py` compute item sets, weights and an order of productions; `genann.py` wrote
  `Proof/SqlLrData.lean` from them; `check.lean.in` is an earlier form of `Proof/SqlLrCheck.lean`.
* `grammar.dsl` is a transcription by hand of `src/sql/parser.lalrpop`; `gengram.py` wrote `Spec/SqlGrammar.lean` from it,
  `genbridge.py` and `gensem.py` wrote `Proof/SqlGrammarDer.lean` and `Proof/SqlGrammarSem.lean`.
* `genspell.py` and `gensafe.py` wrote `Proof/SqlRespelt.lean` and `Proof/SqlWordsSafe.lean`.
* `genwrite.py` and `genokof.py` wrote `Spec/SqlWriting.lean` and `Proof/SqlWritable.lean`.
* `genleaves.py` and `gensyn.py` wrote `Proof/SqlLeaves.lean` and `Proof/SqlSynonyms.lean`.
* `genlex.py` wrote the list of patterns in `Spec/SqlWords.lean`.

The paths in the scripts are those of the machine they ran on.
