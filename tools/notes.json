{
 "C13": {
  "note": "The full claim is false: the micro-shift loop does not terminate when the clock is past the last label (counterexample proved). Proved for the other starts."
 },
 "C15": {
  "note": "The full claim is false: bin index 0 makes the member act one step later even when the target bin has weight zero (C15_counterexample). Proved: a timer of at least 1 leads to a bin of positive weight, and the story next executes exactly at that bin (C15_reset_acts_in_bin)."
 },
 "C18": {
  "note": "The full claim is false for froms without relation: the pairs are added with weight 0 (C18_unknown_from_counterexample). Proved when every listed from has a relation; the exact effect in the general case is C18_remove_relations_effect."
 },
 "C26": {
  "note": "The full claim is false when two requests are on the same from (C26_two_requests_counterexample). Proved when each from is requested once; the exact effect in the general case is C26_pop_effect."
 },
 "C38": {
  "note": "The full claim is false: an operation of the member's own story that resets its timer to 0 in an execution in which it does not act is followed by a tick to -1 (C38_counterexample). Proved for the histories without such a reset; acting again then follows from C36_timer_counts_executions."
 },
 "C45": {
  "note": "The full claim is false with exploded columns when the story data is empty (ValueError, C45_counterexample_empty) or when no row holds any list element while other columns are logged (KeyError, C45_counterexample_no_element). Proved otherwise: one line per list element, with the other fields repeated."
 },
 "C65": {
  "note": "The full claim is false: the restored state is not the one used by the bound numpy method (counterexample proved)."
 },
 "C52": {
  "note": "The full claim is false: Population.update adds members without updating size (C52_counterexample). Proved for the histories without such an update."
 },
 "C57": {
  "note": "The full claim is false: Attribute.update sorts the table while the ids of the population keep their order, so on a population not listed in increasing order the weights go to the wrong members (C57_counterexample). Proved when the attribute lists the members in the order of the population, which any careful history keeps when the ids are increasing (C57_history_partial)."
 },
 "C63": {
  "note": "The full claim is false for cells with carriage returns or NUL characters, tables of one column with blank cells, and a leading byte order mark (counterexamples proved). Proved for all other texts."
 },
 "C58": {
  "note": "The full claim is false for relationships: create_relationship compares the name with the dictionary itself, so it never refuses and replaces the relationship (C58_relationship_counterexample). Proved for populations, stories and generators, along any history of attempted creations."
 },
 "C60": {
  "note": "Content, order, header and existence of the log files are proved in full (C60_logs, C60_file). Reading back is partial: it fails for the texts of C63 and for tables of different columns under one log id (C60_counterexample_columns)."
 },
 "C64": {
  "note": "The full claim is false: ids made of digits come back as numbers, numbers mixed with texts come back as texts, ids such as null come back as missing values, and the file of a relationship without relation cannot be loaded (counterexamples proved). Proved for relationships with relations whose ids are all numbers, or all texts kept by the CSV format."
 },
 "C66": {
  "note": "Proved for circuses with at least one population, whose ids, attribute values and relations keep their type in CSV files, whose generators can be saved, with no dot in generator ids (Storable). The JSON and number formats are contracts. Missing: the other circuses, refuted by C66_counterexample_no_population, _dot, _constant and those of C64; numpy generators restart from seed 1234 (C66_numpy_restarts_partial, C65)."
 },
 "C78": {
  "note": "Existence, ids, order and rows are proved for all runs; the values are those logged if each log has the same columns each time and columns of values that keep their type in CSV files (StorableLog). The full claim is false: texts made of digits, such as phone numbers, become numbers (C78_counterexample)."
 },
 "C85": {
  "note": "Proved when no generator is used for two states of the story. The full claim is false otherwise: the states are handled in the order of a set, so that states which share a generator exchange their draws (C85_counterexample_shared). The exceptions of creations that raise are not compared."
 },
 "C93": {
  "note": "add and add_grouped are proved. The claim on remove is false: the operation calls a method that does not exist and raises on any non-empty data (C93_remove_counterexample); C93_remove_partial states what it does."
 },
 "C103": {
  "note": "The full claim is false: Faker.seed seeds one stream shared by all Faker objects, so constructing or calling another generator changes the values (C103_counterexample, C103_second_generator_rewinds). Proved: the values depend only on the last seed given to any Faker generator and on the calls made since, on any of them (C103_repeatable_partial)."
 },
 "C106": {
  "note": "The full claim is false: when two dealers buy from one distributor in the same step, select_many can hand the same SIM to both and pop it once (C106_counterexample; in the test there are far more dealers than distributors). Proved for circuses in which no two dealers share a distributor (C106_sims_partial, C106_held_once_partial)."
 },
 "C132": {
  "note": "C132_hello_runs, C132_shop_runs, C132_music_runs, C132_music_step1_runs, C132_blog_runs: a run of any duration succeeds, after any successful build. C132_unpopular_raises: popularities of 0 make step 7 raise; C132_no_pos_raises: without points of sale step 4 raises; C132_no_genre_raises: without genres step 2 raises; C131_isolated: a person without friends makes example 6 raise."
 },
 "C133": {
  "note": "C133_saved, C133_loaded. What cannot be stored is that of C64 and C65 (empty relationships, texts that look like numbers)."
 },
 "C134": {
  "note": "C134_built gives Ready and Opening, the hypotheses of C126_records, C126_ids, C126_genre, C126_integers and C126_activity. C134_runs: the run never raises (as C132_music_runs)."
 },
 "C135": {
  "note": "C135_built gives Ready and Opening, the hypotheses of C135_who, C135_records, C135_constant and C135_log; C135_run is the whole run, with its log files. C135_given and C135_words: where the names, the ages, the sentences and the quotes come from."
 },
 "C136": {
  "note": "C136_slides_run, after any successful build."
 },
 "C137": {
  "note": "C137_slides_build and C137_blog_build build from a new circus; C137_slides and C137_blog are the whole scripts; C137_six_nobody is the exception. Example 6 of the blog runs to the end under the hypothesis of C132_blog_runs that each person has a friend, which the random graph does not ensure."
 },
 "C138": {
  "note": "C138_hello_build builds from a new circus; C138_hello is the whole script; C138_no_friends is the ValueError of make_random_bipartite_data without edges. The hypothesis on the network (Friendly) is on the random graph, which the model takes as a parameter."
 },
 "C139": {
  "note": "C139_step1_build and C139_songs_build build from a new circus; C139_step1 and C139_songs are the whole scripts; C139_names and C139_no_artist_raises show that the number of names and the artist are needed (the latter on one circus)."
 },
 "C140": {
  "note": "C140_shop_build builds each step from a new circus; C140_shop is the whole script; C140_no_step_raises shows that the step of the clock is needed; that the point of sale is needed is C132_no_pos_raises."
 },
 "C141": {
  "note": "C141_stories: no story raises after any executions; C141_snd_runs: a run of any duration completes; C141_bulk_sizes and C141_usual: the generators of the scenario are as they must be; C141_sizes_needed and C141_weights_needed show on a circus that is built that the sizes must be whole and the weights not negative."
 },
 "C142": {
  "note": "C142_snd_builds: the constructor never raises; C142_snd_never_raises: from the creation to the end of the run; C142_agents_needed: never built without agents; C142_parameters_needed shows on one circus that the other conditions on parameters are needed."
 },
 "C143": {
  "note": "C143_blog_one: the table of the first ten persons; C143_slide_one: the run of an empty circus; C143_slide_two: the run, then the table; C143_blog_two: the records of the log hello. Each theorem includes that the script does not raise."
 }
}