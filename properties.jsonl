{"id": "C01", "title": "merge_2_dicts is a keyed union", "statement": "merge_2_dicts(d1, d2, f) has exactly the keys of d1 and d2; a key of only one side keeps its value, a key of both sides gets f(d1[k], d2[k]); None counts as an empty dict; without f, a common key raises ValueError and otherwise nothing raises. The result does not depend on the iteration order of the key set.", "quantifier": "all dictionaries, merge functions and set iteration orders", "why_tests_cant": "the iteration order of a Python set of strings changes per process (hash seed); tests only see a few small dicts", "anchors": ["trumania/core/util_functions.py:merge_2_dicts"]}
{"id": "C02", "title": "merge_dicts folds the values of each key in list order", "statement": "merge_dicts(ds, f) has exactly the keys appearing in some dict of ds, and the value of key k is the left fold with f of the values ds gives to k, in list order; the empty list yields {}.", "quantifier": "all lists of dictionaries of any length, all (not necessarily commutative) merge functions", "why_tests_cant": "needs every list length and every overlap pattern", "anchors": ["trumania/core/util_functions.py:merge_dicts", "trumania/core/util_functions.py:merge_2_dicts"]}
{"id": "C03", "title": "cap_to_total caps greedily and exactly", "statement": "For non-negative values and target T >= 0, cap_to_total returns a list of the same length, each value <= the original one, whose sum is min(sum(values), T), and which keeps every value unchanged up to the point where T is exhausted (entry i is min(values[i], T - sum of the earlier values), floored at 0). It never raises.", "quantifier": "all lists of non-negative integers, all targets", "why_tests_cant": "recursion on lists of every length", "anchors": ["trumania/core/util_functions.py:cap_to_total"]}
{"id": "C04", "title": "Sequential ids are never repeated", "statement": "All the ids returned by one SequencialGenerator over any history of generate() calls are pairwise distinct, each call returns as many ids as asked, and the concatenation of all the calls is the id sequence of consecutive counters from start, whatever the prefix, start (also negative) and max_length (also when counters outgrow max_length).", "quantifier": "all generators, all histories of generate(size) calls", "why_tests_cant": "uniqueness over an unbounded history, across the zero-padding boundary", "anchors": ["trumania/core/random_generators.py:SequencialGenerator.generate", "trumania/core/util_functions.py:build_ids"]}
{"id": "C05", "title": "A reloaded sequential generator continues the sequence", "statement": "After save_to / load_from, a SequencialGenerator emits exactly what the original would have emitted next; so ids emitted before the save and after the reload never collide. Loading twice gives two generators emitting the same ids.", "quantifier": "all generators, all histories before the save and after the reload", "why_tests_cant": "quantifies over all histories around the save point", "anchors": ["trumania/core/random_generators.py:SequencialGenerator.save_to", "trumania/core/random_generators.py:SequencialGenerator.load_from"]}
{"id": "C06", "title": "Zero-padded ids sort like their counters", "statement": "As long as the counters are non-negative and below 10^max_length, the ids built by build_ids all have the same length and their lexicographic order is the counter order; beyond that bound the order may break.", "quantifier": "all prefixes, lengths and counter ranges", "why_tests_cant": "needs all pairs of counters", "anchors": ["trumania/core/util_functions.py:build_ids"]}
{"id": "C07", "title": "MSISDNs are well formed and never generated twice", "statement": "Over any history of generate() calls of one MSISDNGenerator with pairwise distinct prefixes, all returned numbers are pairwise distinct, each one is countrycode + one of the prefixes + exactly `length` digits, and each call returns the requested amount or raises; a call succeeds exactly when the amount is still available, the total capacity being len(prefix_list) * (10^length - 1).", "quantifier": "all prefix lists, lengths, seeds, histories of calls, and outcomes of the underlying random choice", "why_tests_cant": "uniqueness over unbounded histories and all random draws", "anchors": ["trumania/core/random_generators.py:MSISDNGenerator"]}
{"id": "C08", "title": "latest_date_before finds the last cycle start", "statement": "For a positive time_step, latest_date_before terminates and returns the unique date d = starting_date + n * time_step (n any integer) with d <= upper_bound < d + time_step.", "quantifier": "all dates and positive steps", "why_tests_cant": "two unbounded loops; termination and uniqueness for all inputs", "anchors": ["trumania/core/util_functions.py:latest_date_before"]}
{"id": "C09", "title": "n_iterations is the smallest sufficient number of steps", "statement": "n_iterations(duration) is the smallest n >= 0 such that n clock steps last at least `duration` (for a non-negative duration and a positive step).", "quantifier": "all durations and step lengths (exact arithmetic)", "why_tests_cant": "minimality over all durations", "anchors": ["trumania/core/clock.py:Clock.n_iterations"]}
{"id": "C10", "title": "Timestamps fall inside the current clock step", "statement": "Every random timestamp lies in [current_date, current_date + step_duration) at whole seconds after current_date, a non random one is current_date, and exactly `size` timestamps are returned; steps shorter than one second raise when timestamps are asked for.", "quantifier": "all clocks, sizes and random draws", "why_tests_cant": "must hold for every random draw", "anchors": ["trumania/core/clock.py:Clock.get_timestamp", "trumania/core/clock.py:ClockOps.Timestamp"]}
{"id": "C11", "title": "The clock date is start + n * step", "statement": "After n increments current_date == start + n * step_duration, and every registered listener has been incremented exactly n times (once per step, in registration order).", "quantifier": "all n and all listeners", "why_tests_cant": "induction over the number of steps", "anchors": ["trumania/core/clock.py:Clock.increment", "trumania/core/clock.py:Clock.register_increment_listener"]}
{"id": "C12", "title": "The cyclic profile stays a cdf of the rotated weights", "statement": "After any number k of increments, the cdf of a CyclicTimerGenerator is the cumulative distribution of the profile weights rotated by k: entry j is the share of the weights of the j+1 next time bins; it is non-decreasing, starts at >= 0, ends at 1; it is unchanged after a full cycle; and the date labels rotate with it.", "quantifier": "all profiles with non-negative weights and positive sum, all numbers of increments (exact arithmetic)", "why_tests_cant": "invariant over unboundedly many destructive updates", "anchors": ["trumania/core/clock.py:CyclicTimerGenerator.increment"]}
{"id": "C13", "title": "A cyclic timer is aligned with the clock when built", "statement": "Building a CyclicTimerGenerator terminates, and afterwards the first bin of its profile is the one of the current clock date: its label is the first grid date >= current_date, grid dates being profile start + multiples of the clock step.", "quantifier": "all profiles, start dates, clock dates and step durations", "why_tests_cant": "termination of a loop over all alignments of dates", "anchors": ["trumania/core/clock.py:CyclicTimerGenerator.__init__", "trumania/core/util_functions.py:latest_date_before"]}
{"id": "C14", "title": "Generated timers are valid waiting times", "statement": "For every activity level > 0 and every random draw, CyclicTimerGenerator.generate returns a whole number >= 0; for low activities (<= 2) it is below n_bins * (floor(2/activity) + 1), for high activities below n_bins; the result is indexed like the observations.", "quantifier": "all activities, all draws, all cdfs", "why_tests_cant": "must hold for every draw of the uniform and beta distributions", "anchors": ["trumania/core/clock.py:CyclicTimerGenerator.generate"]}
{"id": "C15", "title": "A timer targets a bin of positive weight", "statement": "When the drawn position falls after the current bin, the bin selected by CyclicTimerGenerator.generate has a strictly positive weight; re-scheduled by auto-reset at step t, the story next executes exactly at that bin, so members never act in periods of weight zero.", "quantifier": "all profiles, draws, activities", "why_tests_cant": "needs every draw and every zero pattern", "anchors": ["trumania/core/clock.py:CyclicTimerGenerator.generate", "trumania/core/story.py:Story.execute", "trumania/core/story.py:Story.reset_timers"]}
{"id": "C16", "title": "A relationship stores exactly the multiset of added relations", "statement": "After any sequence of add_relations / add_grouped_relations calls on a new Relationship, get_relations() returns, up to order, exactly all the (from, to, weight) triples added, with multiplicity (weight 1 by default).", "quantifier": "all sequences of additions, all duplicate patterns, all tie-breaking of argsort and all set iteration orders", "why_tests_cant": "unbounded histories; argsort is not stable and dict order is hash dependent", "anchors": ["trumania/core/relationship.py:Relationship.add_relations", "trumania/core/relationship.py:Relations.from_tuples", "trumania/core/relationship.py:Relations.plus", "trumania/core/relationship.py:Relationship.add_grouped_relations", "trumania/core/relationship.py:Relationship.get_relations"]}
{"id": "C17", "title": "Reading a relationship is consistent", "statement": "get_relations(from_ids) is the sub-multiset of the relations whose from is in from_ids (duplicate requests do not duplicate rows); get_neighbourhood_size(f) is their number for f (0 if unknown); unique_tos() is the set of their tos; none of these change the relationship.", "quantifier": "all relationships reachable by additions, all requests", "why_tests_cant": "must hold in every reachable state", "anchors": ["trumania/core/relationship.py:Relationship.get_relations", "trumania/core/relationship.py:Relationship.get_neighbourhood_size", "trumania/core/relationship.py:Relationship.unique_tos"]}
{"id": "C18", "title": "remove_relations removes exactly the listed pairs", "statement": "After remove_relations(froms, tos), every relation of a listed (from, to) pair is gone (all its copies) and every other relation is kept with its weight; nothing is added.", "quantifier": "all relationships and all lists of pairs", "why_tests_cant": "needs all overlaps of pairs, unknown froms included", "anchors": ["trumania/core/relationship.py:Relationship.remove_relations", "trumania/core/relationship.py:Relations.minus", "trumania/core/util_functions.py:merge_2_dicts"]}
{"id": "C19", "title": "select_one returns existing relations, aligned with the requests", "statement": "Without one_to_one, select_one returns at most one row per request, in request order and carrying the request's index label and from; each row holds a `to` that is currently related to that from; a request gets a row with a `to` exactly when its from has at least one relation; the others get a None row when discard_empty is False and no row otherwise; the relationship is unchanged unless remove_selected.", "quantifier": "all relationships, request lists (duplicates included), random draws", "why_tests_cant": "must hold for every random draw", "anchors": ["trumania/core/relationship.py:Relationship.select_one", "trumania/core/relationship.py:Relations.pick_one"]}
{"id": "C20", "title": "one_to_one selections are injective", "statement": "With one_to_one=True no two rows of the result hold the same `to`; every `to` picked by some request is kept for exactly one of the requests that picked it; None rows are all kept.", "quantifier": "all relationships, unique request labels, random draws and permutations", "why_tests_cant": "all collisions patterns, all draws and permutations", "anchors": ["trumania/core/relationship.py:Relationship.select_one"]}
{"id": "C21", "title": "Popping removes exactly what was returned", "statement": "With remove_selected=True, select_one removes from the relationship exactly the picked relations that are returned, one stored copy per distinct picked relation, and leaves every other relation (weights included) in place; a from left without relations disappears.", "quantifier": "all relationships, requests, draws, with and without one_to_one", "why_tests_cant": "positional deletion must be right for every set of indices", "anchors": ["trumania/core/relationship.py:Relationship.select_one", "trumania/core/relationship.py:Relations.remove_inplace"]}
{"id": "C22", "title": "A relation of weight zero is never selected", "statement": "When a from has several relations, select_one never returns one whose weight (or overridden weight) is 0.", "quantifier": "all relationships with non-negative weights, all draws", "why_tests_cant": "must hold for every random draw", "anchors": ["trumania/core/relationship.py:Relations.pick_one"]}
{"id": "C23", "title": "Overridden weights must cover all tos", "statement": "select_one with overridden_to_weights raises AssertionError exactly when some `to` of the relationship (requested or not) has no overridden weight, before any random draw and without changing the relationship.", "quantifier": "all relationships and weight maps", "why_tests_cant": "all key sets", "anchors": ["trumania/core/relationship.py:Relationship.select_one", "trumania/core/relationship.py:Relationship.unique_tos"]}
{"id": "C24", "title": "select_many honours the quantities", "statement": "select_many returns for each request a list of tos related to its from: no stored relation is handed out twice within the call, no request gets more than it asked, and the total handed out for a from is min(total asked for it, number of its relations); when nothing is capped every request gets exactly what it asked.", "quantifier": "all relationships, non-negative quantities, unique request labels, draws and permutations", "why_tests_cant": "all capping patterns and draws", "anchors": ["trumania/core/relationship.py:Relationship.select_many", "trumania/core/relationship.py:Relations.pick_many", "trumania/core/util_functions.py:cap_to_total"]}
{"id": "C25", "title": "select_many covers every request when discard_empty is False", "statement": "With discard_empty=False the result has exactly one row per request label (an empty list for the unserved ones); with discard_empty=True exactly the requests that were served at least one item appear.", "quantifier": "all relationships, non-negative quantities, unique request labels", "why_tests_cant": "all mixes of served, capped, zero and unknown requests", "anchors": ["trumania/core/relationship.py:Relationship.select_many"]}
{"id": "C26", "title": "select_many with pop removes exactly what was handed out", "statement": "With remove_selected=True, select_many removes from the relationship exactly the relations it returned, so an item can never be handed out twice.", "quantifier": "all relationships and requests, including several requests on the same from", "why_tests_cant": "needs requests sharing a from; draws", "anchors": ["trumania/core/relationship.py:Relationship.select_many", "trumania/core/relationship.py:Relations.remove_inplace"]}
{"id": "C27", "title": "Stock items are conserved", "statement": "Over any history of add_relations and one_to_one pops (select_one with remove_selected and one_to_one), the items currently in stock plus all the items ever returned are exactly the items ever added, with multiplicity: nothing is lost, duplicated or invented.", "quantifier": "all histories of operations, all draws", "why_tests_cant": "unbounded histories", "anchors": ["trumania/core/relationship.py:Relationship.select_one", "trumania/core/relationship.py:Relationship.add_relations", "trumania/core/population.py:Population.create_stock_relationship"]}
{"id": "C28", "title": "select_all returns every relation of every requested from", "statement": "select_all_horizontal returns one row per requested from that has relations, holding all its tos with multiplicity; froms without relation are absent; the select_all operation joins that list on every row of the story data and drops the rows whose from has no relation.", "quantifier": "all relationships and requests", "why_tests_cant": "all multiplicities and request duplicates", "anchors": ["trumania/core/relationship.py:Relationship.select_all_horizontal", "trumania/core/relationship.py:RelationshipOps.SelectAll"]}
{"id": "C29", "title": "Seeded selections are repeatable", "statement": "Two relationships with the same seed and the same content (same relations in the same per-from order) return the same selections for the same requests, whatever the hash-dependent order of their internal dictionary.", "quantifier": "all dictionary orders, all request sequences with explicit from_ids", "why_tests_cant": "hash randomisation differs between processes, so one process cannot observe it", "anchors": ["trumania/core/relationship.py:Relationship.select_one", "trumania/core/util_functions.py:merge_2_dicts", "trumania/core/random_generators.py:seed_provider"]}
{"id": "C30", "title": "Exactly the members whose timer is 0 act", "statement": "execute() runs the operations once, on a story data holding exactly one row per member whose timer is 0 (indexed by the member id, in member order, with the id in member_id_field), and runs nothing and emits no logs if there is none.", "quantifier": "all story states", "why_tests_cant": "all timer states", "anchors": ["trumania/core/story.py:Story.execute", "trumania/core/story.py:Story.active_inactive_ids", "trumania/core/story.py:Story.init_story_data"]}
{"id": "C31", "title": "Waiting members tick by one, inactive members stay inactive", "statement": "A member that did not act and was not forced or reset during an execute() has its timer decreased by exactly 1 if it was >= 0 and left unchanged if it was negative (or undefined).", "quantifier": "all story states, all operation chains", "why_tests_cant": "must hold for every interleaving of side effects of the chain", "anchors": ["trumania/core/story.py:Story.timer_tick", "trumania/core/story.py:Story.execute"]}
{"id": "C32", "title": "A forced member acts at the next execution", "statement": "If force_act_next is called for a member of a story, that member has a timer of 0 from then on and acts at the next execute() of that story, whatever other operations (timer resets, state transitions, ticks, other stories) happen in between.", "quantifier": "all stories, all interleavings of built-in operations of all the stories of the circus", "why_tests_cant": "unbounded interleavings", "anchors": ["trumania/core/story.py:Story.force_act_next", "trumania/core/story.py:StoryOps.ForceActNext", "trumania/core/story.py:Story.reset_timers", "trumania/core/story.py:Story.timer_tick"]}
{"id": "C33", "title": "Forcing is one-shot", "statement": "A forced execution consumes the flag: after the execute() in which a forced member acted, unless it is forced again meanwhile, its timer is the freshly generated one (auto reset) or negative (no auto reset), so it does not act again because of the same force.", "quantifier": "all story states and chains", "why_tests_cant": "unbounded histories", "anchors": ["trumania/core/story.py:Story.execute"]}
{"id": "C34", "title": "Auto-reset reschedules every member that acted", "statement": "With auto_reset_timer, after execute() the timer of each member that acted is the value generated for its current activity (or -1 if that activity is 0), unless it forced itself to act again; rows dropped by the operations are rescheduled all the same.", "quantifier": "all story states, chains (dropping rows or not), timer generators", "why_tests_cant": "all chains and all generated values", "anchors": ["trumania/core/story.py:Story.execute", "trumania/core/story.py:Story.reset_timers"]}
{"id": "C35", "title": "Without auto-reset a story acts once per trigger", "statement": "Without auto_reset_timer all members start inactive, and a member that acted and was neither forced nor reset by its own operations has a negative timer afterwards and never acts again until it is forced or its timer is reset.", "quantifier": "all histories", "why_tests_cant": "unbounded histories", "anchors": ["trumania/core/story.py:Story.__init__", "trumania/core/story.py:Story.execute", "trumania/core/story.py:Story.timer_tick"]}
{"id": "C36", "title": "A timer of n means acting exactly n executions later", "statement": "A member whose timer is the whole number n >= 0 and that nobody forces or resets does not act in the next n executions of its story and acts in the following one; a member with a negative timer never acts.", "quantifier": "all n, all chains of the other members", "why_tests_cant": "induction over n and over all side effects", "anchors": ["trumania/core/story.py:Story.execute", "trumania/core/story.py:Story.timer_tick"]}
{"id": "C37", "title": "Members of activity zero are never scheduled", "statement": "A member whose activity in its current state is 0 gets timer -1 at each reset (explicit, automatic or at construction), whatever the timer generator returns, and hence acts only if forced.", "quantifier": "all generators and states", "why_tests_cant": "all generators", "anchors": ["trumania/core/story.py:Story.reset_timers"]}
{"id": "C38", "title": "No member is lost", "statement": "In an auto-reset story whose timer generator yields whole numbers >= 0, a member of non-zero activity always keeps a timer >= 0, so that it always acts again later.", "quantifier": "all histories of executions and operations", "why_tests_cant": "liveness over unbounded histories; needs the reset/tick interplay", "anchors": ["trumania/core/story.py:Story.execute", "trumania/core/story.py:StoryOps.ResetTimers", "trumania/core/story.py:Story.timer_tick"]}
{"id": "C39", "title": "Back-to-default probabilities 0 and 1 are certainties", "statement": "At the end of the operations, a member present in the story data and in a non-default state with back_to_default_probability 1 is back in the default state, one with probability 0 keeps its state, and a member that is not in the story data (or already in default) keeps its state; for other probabilities only default or the current state result.", "quantifier": "all states, probabilities and uniform draws in [0,1)", "why_tests_cant": "must hold for every draw and mix of probabilities", "anchors": ["trumania/core/story.py:Story._MaybeBackToDefault"]}
{"id": "C40", "title": "Parameters follow the state", "statement": "get_param returns, for each requested member in request order, the activity (or back-to-default probability) declared for the state it is currently in; transit_to_state changes exactly the states of the listed members.", "quantifier": "all stories with any number of states, all request lists", "why_tests_cant": "all alignments of ids and states", "anchors": ["trumania/core/story.py:Story.get_param", "trumania/core/story.py:Story.transit_to_state"]}
{"id": "C41", "title": "The default state cannot be redefined", "statement": "Creating a story whose states contain the key `default` raises ValueError; otherwise the story has exactly the states default plus the declared ones, and all members start in default.", "quantifier": "all state dictionaries", "why_tests_cant": "all dictionaries", "anchors": ["trumania/core/story.py:Story.__init__", "trumania/core/util_functions.py:merge_2_dicts"]}
{"id": "C42", "title": "A chain is sequential composition", "statement": "Executing a Chain feeds each operation with the output of the previous one, in order, and its logs are, for each log id, the concatenation of the logs of the operations in execution order; an empty chain is the identity; nesting chains is the same as flattening them; if an operation raises, later ones are not executed.", "quantifier": "all lists of operations (user-defined ones included), all story data", "why_tests_cant": "arbitrary operations and nesting", "anchors": ["trumania/core/operations.py:Chain", "trumania/core/util_functions.py:merge_dicts", "trumania/core/util_functions.py:df_concat"]}
{"id": "C43", "title": "Adding a column keeps all rows and all fields", "statement": "An operation adding a column (generate, timestamp, Apply, neighbourhood size...) whose output is indexed like the story data keeps the rows, their order, their index and the values of all other fields, when the story data index is unique.", "quantifier": "all story data with unique index", "why_tests_cant": "join semantics over all frames", "anchors": ["trumania/core/operations.py:AddColumns.transform"]}
{"id": "C44", "title": "Story rows always are distinct acting members", "statement": "Whatever sequence of built-in operations a story runs, at each point the story data has a unique index, which is a subset of the members that act in this execution; side-effect-only operations, loggers and lookups do not change the rows.", "quantifier": "all sequences of built-in operations, all world states, all draws", "why_tests_cant": "unbounded compositions of joins", "anchors": ["trumania/core/operations.py:AddColumns.transform", "trumania/core/operations.py:DropRow", "trumania/core/operations.py:SideEffectOnly", "trumania/core/relationship.py:RelationshipOps", "trumania/core/population.py:PopulationOps.Lookup"]}
{"id": "C45", "title": "FieldLogger logs the selected fields of every row", "statement": "FieldLogger emits under its log id one line per story row in order with exactly the selected columns (all if none is selected); with exploded columns, one line per list element, repeating the other fields; it does not change the story data.", "quantifier": "all story data, all column lists, all list lengths", "why_tests_cant": "all list lengths, empty story data included", "anchors": ["trumania/core/operations.py:FieldLogger"]}
{"id": "C46", "title": "DropRow removes exactly the rows whose condition is true", "statement": "DropRow(condition_field) keeps exactly the rows whose condition is False, in order and unmodified.", "quantifier": "all frames", "why_tests_cant": "all frames", "anchors": ["trumania/core/operations.py:DropRow"]}
{"id": "C47", "title": "Bulk generation slices the generated values exactly", "statement": "generate(named_as, quantity_field) gives each row a list of exactly its quantity of values, and the lists concatenated in row order are exactly the values generated, each used once.", "quantifier": "all non-negative quantities and generators", "why_tests_cant": "all quantity vectors", "anchors": ["trumania/core/random_generators.py:GeneratorOps.RandomValues"]}
{"id": "C48", "title": "bound_value clamps", "statement": "bound_value(lb, ub)(x) is x when x is within the given bounds, and otherwise the violated bound; for lb <= ub the result is always within bounds, monotone in x and idempotent.", "quantifier": "all bounds (optional) and values", "why_tests_cant": "all values", "anchors": ["trumania/core/operations.py:bound_value"]}
{"id": "C49", "title": "bounded_sigmoid reaches exactly 0 and 1", "statement": "For x_min < x_max, bounded_sigmoid is 0 for x <= x_min and 1 for x >= x_max (reversed when not incrementing), is monotone, and stays in [0,1].", "quantifier": "all parameters and x, for any symmetric-beta cdf with cdf(0)=0, cdf(1)=1, monotone", "why_tests_cant": "continuous domain", "anchors": ["trumania/core/operations.py:bounded_sigmoid", "trumania/core/operations.py:bound_value"]}
{"id": "C50", "title": "Triggers respect probabilities 0 and 1", "statement": "A DependentTriggerGenerator never triggers where the mapped probability is <= 0 and always triggers where it is >= 1, and gives exactly one boolean per observation.", "quantifier": "all observations, mappers and draws in [0,1)", "why_tests_cant": "must hold for every draw", "anchors": ["trumania/core/random_generators.py:DependentTrigger.generate"]}
{"id": "C51", "title": "Population ids are unique", "statement": "A Population can only be built with pairwise distinct ids, and stays so after any sequence of update() calls; update adds exactly the unknown ids.", "quantifier": "all constructions and histories of updates", "why_tests_cant": "unbounded histories", "anchors": ["trumania/core/population.py:Population.__init__", "trumania/core/population.py:Population.update"]}
{"id": "C52", "title": "The population size is the number of its members", "statement": "population.size equals the number of ids at any time (creating attributes and stories relies on it).", "quantifier": "all histories of updates", "why_tests_cant": "unbounded histories", "anchors": ["trumania/core/population.py:Population.update", "trumania/core/attribute.py:Attribute.__init__", "trumania/core/story.py:Story.__init__"]}
{"id": "C53", "title": "Attributes read back what was written", "statement": "After attribute.update(values) with distinct ids, reading the attribute returns the new value for each updated id (known or new) and the previous value for every other id; nothing else disappears. get_values returns one value per requested id in request order and raises KeyError on unknown ids.", "quantifier": "all attribute tables and updates, all histories", "why_tests_cant": "unbounded histories of updates", "anchors": ["trumania/core/attribute.py:Attribute.update", "trumania/core/attribute.py:Attribute.get_values", "trumania/core/attribute.py:AttributeOps.Update"]}
{"id": "C54", "title": "Attribute.add accumulates all contributions", "statement": "attribute.add(ids, values) adds to each listed member the sum of all the values given for it (duplicates pile up) and leaves the others unchanged; it raises KeyError if some id is unknown; add followed by subtract of the same values restores the attribute.", "quantifier": "all tables, ids with duplicates, values", "why_tests_cant": "all duplicate patterns", "anchors": ["trumania/core/attribute.py:Attribute.add", "trumania/core/attribute.py:AttributeOps.Add"]}
{"id": "C55", "title": "Population.update writes full members, last duplicate wins", "statement": "population.update(df) raises ValueError and changes nothing unless the columns are exactly the attributes; otherwise, for each id of df the values of its last row are readable in every attribute afterwards, and other members are unchanged.", "quantifier": "all populations and frames", "why_tests_cant": "all column sets and duplicates", "anchors": ["trumania/core/population.py:Population.update"]}
{"id": "C56", "title": "lookup returns each row's own member's attributes", "statement": "The lookup operation adds to each row exactly the attribute values of the member its id field names (for list fields, the list of values in the same order), keeps the rows, and raises KeyError on unknown ids.", "quantifier": "all story data with unique index, duplicates in the id field", "why_tests_cant": "all alignments of duplicates", "anchors": ["trumania/core/population.py:PopulationOps.Lookup"]}
{"id": "C57", "title": "Weighted member selection uses each member's own weight", "statement": "population.ops.select_one(weight_attribute_name=w) gives each member a selection probability proportional to its own value of w, and never selects members of weight 0.", "quantifier": "all populations, attribute histories and draws", "why_tests_cant": "depends on the history of attribute updates", "anchors": ["trumania/core/population.py:PopulationOps.select_one", "trumania/core/attribute.py:Attribute.update"]}
{"id": "C58", "title": "Names are not silently overwritten", "statement": "Creating a population, story, generator or relationship under a name already in use raises ValueError and leaves the existing object in place.", "quantifier": "all circuses and names", "why_tests_cant": "all histories of creations", "anchors": ["trumania/core/circus.py:Circus.create_population", "trumania/core/circus.py:Circus.create_story", "trumania/core/circus.py:Circus.attach_generator", "trumania/core/population.py:Population.create_relationship"]}
{"id": "C59", "title": "run executes every story once per step", "statement": "run(duration) performs exactly n_iterations(duration) steps; in each step every story is executed exactly once, in creation order, all at the same clock date, and the clock then advances by one step.", "quantifier": "all circuses, durations and stories", "why_tests_cant": "unbounded number of steps", "anchors": ["trumania/core/circus.py:Circus.run"]}
{"id": "C60", "title": "Log files contain every emitted row once, in order, under one header", "statement": "After run, the file <log_id>.csv contains one header line followed by all the rows emitted under that log id during the run, each exactly once, in order of emission (step by step, story by story), and exists iff at least one row was emitted. Reading the file back gives exactly those cells.", "quantifier": "all runs, logs and cell contents", "why_tests_cant": "unbounded runs, appends and cell texts (quotes, commas, newlines)", "anchors": ["trumania/core/circus.py:Circus.save_logs", "trumania/core/circus.py:Circus.run", "trumania/core/util_functions.py:load_all_logs"]}
{"id": "C61", "title": "run never overwrites existing logs silently", "statement": "If the log folder exists and delete_existing_logs is False, run raises and changes nothing at all; with delete_existing_logs nothing of the previous folder survives and nothing outside of it is touched.", "quantifier": "all file systems", "why_tests_cant": "all file trees", "anchors": ["trumania/core/circus.py:Circus.run", "trumania/core/util_functions.py:ensure_non_existing_dir"]}
{"id": "C62", "title": "ensure_non_existing_dir deletes exactly one tree", "statement": "After ensure_non_existing_dir(f), f and everything below it is gone and every other path is unchanged; it terminates and never fails on a well formed tree; it is idempotent.", "quantifier": "all file trees of any depth, all directory listing orders", "why_tests_cant": "recursion over arbitrary trees", "anchors": ["trumania/core/util_functions.py:ensure_non_existing_dir"]}
{"id": "C63", "title": "CSV cells round-trip", "statement": "Reading back a file written by to_csv gives the same cells whatever characters they contain (commas, quotes, newlines).", "quantifier": "all tables of strings", "why_tests_cant": "all strings", "anchors": ["trumania/core/circus.py:Circus.save_logs", "trumania/core/util_functions.py:load_all_logs", "trumania/core/attribute.py:Attribute.save_to", "trumania/core/attribute.py:Attribute.load_from"]}
{"id": "C64", "title": "A saved relationship is restored", "statement": "load_from(save_to(r)) has the same seed and the same multiset of (from, to, weight) relations as r.", "quantifier": "all non-empty relationships", "why_tests_cant": "all contents", "anchors": ["trumania/core/relationship.py:Relationship.save_to", "trumania/core/relationship.py:Relationship.load_from"]}
{"id": "C65", "title": "A reloaded numpy generator continues its random sequence", "statement": "A NumpyRandomGenerator loaded from disk generates the same values as the saved one would have generated next.", "quantifier": "all generators, states and sizes", "why_tests_cant": "the existing test for this is never collected (its name lacks the test_ prefix), and would need every state", "anchors": ["trumania/core/random_generators.py:NumpyRandomGenerator.load_from", "trumania/core/random_generators.py:NumpyRandomGenerator.save_to"]}
{"id": "C66", "title": "A saved circus is restored", "statement": "After save_to_db, load_from_db(name) gives a circus with the same master seed, clock start and step, the same populations (ids, attributes, relationships) and the same generators.", "quantifier": "all circuses with serialisable generators", "why_tests_cant": "all names and contents", "anchors": ["trumania/core/circus.py:Circus.save_to_db", "trumania/core/circus.py:Circus.load_from_db", "trumania/components/db.py:list_populations", "trumania/components/db.py:list_generators"]}
{"id": "C67", "title": "save_to_db refuses to overwrite", "statement": "If the namespace exists and overwrite is False, save_to_db raises and leaves the database unchanged.", "quantifier": "all database contents", "why_tests_cant": "all file trees", "anchors": ["trumania/core/circus.py:Circus.save_to_db"]}
{"id": "C68", "title": "Seeds are valid and depend only on the master seed", "statement": "seed_provider yields seeds between 1 and 2^31 - 2 (never 0, which would be taken for `no seed`), determined by the master seed alone.", "quantifier": "all master seeds, all positions in the sequence", "why_tests_cant": "infinite sequences", "anchors": ["trumania/core/random_generators.py:seed_provider", "trumania/core/population.py:Population.create_relationship"]}
{"id": "C69", "title": "Work hours profile", "statement": "WorkHoursTimerGenerator builds a profile of exactly 7*24 hours with weight 1 exactly for the hours start_hour..end_hour (both included) of the five first days and 0 elsewhere, for all 0 <= start_hour <= end_hour < 24, and rejects other bounds.", "quantifier": "all pairs of hours", "why_tests_cant": "whole domain of parameters", "anchors": ["trumania/components/time_patterns/profilers.py:WorkHoursTimerGenerator"]}
{"id": "C70", "title": "The ER social network is symmetric", "statement": "add_er_social_network_relationship creates a relationship that contains (a, b) as often as (b, a), links only members of the population, and never links a member with itself.", "quantifier": "all populations with distinct ids, all simple graphs drawn", "why_tests_cant": "all graphs", "anchors": ["trumania/components/social_networks/erdos_renyi.py:WithErdosRenyi.add_er_social_network_relationship", "trumania/components/social_networks/erdos_renyi.py:create_er_social_network"]}
{"id": "C71", "title": "A stock relationship distributes every item once", "statement": "create_stock_relationship distributes exactly n_items_per_member * size items, each generated item being given to exactly one member of the population.", "quantifier": "all populations, generators, draws", "why_tests_cant": "all draws", "anchors": ["trumania/core/population.py:Population.create_stock_relationship", "trumania/core/util_functions.py:make_random_assign"]}
{"id": "C72", "title": "Random bipartite data", "statement": "make_random_bipartite_data returns only pairs (x, y) with x in group1 and y in group2, each pair of positions at most once, and [] when a group is empty or p is 0.", "quantifier": "all groups and all drawn graphs", "why_tests_cant": "all graphs", "anchors": ["trumania/core/util_functions.py:make_random_bipartite_data"]}
{"id": "C73", "title": "Activity levels scale with the profile duration", "statement": "timer.activity(n, per) is n * profile duration / per: it is linear in n, and asking for n per duration of the profile gives activity n; duration() is the number of profile entries times the time step.", "quantifier": "all n, per, profiles (exact arithmetic)", "why_tests_cant": "all rationals", "anchors": ["trumania/core/clock.py:CyclicTimerGenerator.activity", "trumania/core/clock.py:CyclicTimerProfile.duration"]}
{"id": "C74", "title": "Generators give as many values as asked", "statement": "generate(size=n) of every generator class of the library (constant, fixed, sequencial, numpy uniform and choice, pareto, msisdn) returns exactly n values whenever it returns.", "quantifier": "all generators, states and natural sizes", "why_tests_cant": "all states and sizes", "anchors": ["trumania/core/random_generators.py:Generator.generate", "trumania/core/random_generators.py:MSISDNGenerator.generate", "trumania/core/random_generators.py:SequencialGenerator.generate"]}
{"id": "C75", "title": "Dependent generators give one value per observation", "statement": "generate(observations=l) of every dependent generator class (constant, cyclic timer, trigger, bulk) returns exactly one value per observation whenever it returns.", "quantifier": "all dependent generators and observations", "why_tests_cant": "all lists of observations", "anchors": ["trumania/core/random_generators.py:DependentGenerator.generate", "trumania/core/clock.py:CyclicTimerGenerator.generate"]}
{"id": "C76", "title": "Random assignment", "statement": "make_random_assign(set1, set2) lists set1 in order, each with a member of set2; it fails exactly when set2 is empty and set1 is not.", "quantifier": "all sets and draws", "why_tests_cant": "all draws", "anchors": ["trumania/core/util_functions.py:make_random_assign"]}
{"id": "C77", "title": "Random proportions", "statement": "assign_random_proportions lists, for each member of the first group in order, one non-negative weight per member of the second group, the weights summing to 1; a member is left out exactly when all the numbers drawn for it are 0.", "quantifier": "all groups and draws (exact arithmetic)", "why_tests_cant": "all draws", "anchors": ["trumania/core/util_functions.py:assign_random_proportions"]}
{"id": "C78", "title": "Logs loaded again are the logged tables", "statement": "After a run, load_all_logs(folder) returns, for each log id under which rows were logged, one table with all the logged rows, values and columns, in the order of the executions, and nothing else, whatever the order of os.listdir; it raises when nothing was logged at all.", "quantifier": "all circuses, runs, chains of operations and listing orders", "why_tests_cant": "unbounded runs and arbitrary values", "anchors": ["trumania/core/util_functions.py:load_all_logs", "trumania/core/circus.py:Circus.run"]}
{"id": "C79", "title": "Derived generators keep the counts", "statement": "Generators made with map and flatmap, and bulk generators, give as many values as asked, and one value per observation, for all the generators of the library and however they are shared, provided the functions given as f_vect keep the number of values. map transforms each value of its parent and wants exactly one of its two functions; flatmap works only with bulk generators, and with triggers when the parent gives numpy arrays.", "quantifier": "all expressions built from map, flatmap and bulk generators, all states and sizes", "why_tests_cant": "all compositions", "anchors": ["trumania/core/random_generators.py:Generator.map", "trumania/core/random_generators.py:Generator.flatmap", "trumania/core/random_generators.py:DependentBulkGenerator.generate"]}
{"id": "C80", "title": "A shared sequence of ids hands out each id once", "statement": "A SequencialGenerator used directly, by bulk generators and through sizes.flatmap(DependentBulkGenerator(ids)), interleaved in any order with calls of other generators, hands out consecutive ids, each exactly once, provided no size is negative.", "quantifier": "all histories of calls on shared generators", "why_tests_cant": "unbounded histories and arbitrary interleavings", "anchors": ["trumania/core/random_generators.py:SequencialGenerator.generate", "trumania/core/random_generators.py:DependentBulkGenerator.generate", "trumania/core/random_generators.py:Generator.flatmap"]}
{"id": "C81", "title": "A grouped stock of ids gives each item to one member", "statement": "create_stock_relationship_grp with sizes.flatmap(DependentBulkGenerator(ids)) fills the relationship with new ids, each owned once by exactly one member, the k-th member owning as many items as the k-th drawn size.", "quantifier": "all populations, sequences of ids and generators of sizes", "why_tests_cant": "all draws", "anchors": ["trumania/core/population.py:Population.create_stock_relationship_grp", "trumania/core/random_generators.py:Generator.flatmap"]}
{"id": "C82", "title": "Operations touch only what they are given", "statement": "In any sequence of built-in operations, nested chains included, a field that none of them adds keeps its value for each member until it is logged; a generator given to none of them and to no story keeps its state; nothing is logged under ids they were not given.", "quantifier": "all sequences of built-in operations, all story data and circuses", "why_tests_cant": "unbounded chains and arbitrary interactions", "anchors": ["trumania/core/operations.py:Operation", "trumania/core/operations.py:AddColumns.transform", "trumania/core/operations.py:FieldLogger.build_logs", "trumania/core/population.py:Population.ops"]}
{"id": "C83", "title": "Transaction ids are unique over a run", "statement": "When stories stamp what their members do with ids of one sequential generator, used by nothing else, and log them, all the ids in the log are distinct, over all the executions of all these stories in the run.", "quantifier": "all circuses, chains of this form and lengths of run", "why_tests_cant": "unbounded runs", "anchors": ["trumania/core/random_generators.py:SequencialGenerator.generate", "trumania/core/operations.py:FieldLogger.build_logs", "trumania/core/circus.py:Circus.run"]}
{"id": "C84", "title": "Runs do not depend on the order of sets", "statement": "Two runs of the same circus on the same files, in processes in which sets and directory listings are iterated in different orders (PYTHONHASHSEED, file system), write the same files, contents included, and leave the same circus, or raise the same exception; so does every single built-in operation and every execution of a story. The circus is the same up to the order of the froms of its relationships and of the states of its stories.", "quantifier": "all circuses, chains of built-in operations, durations and orders of sets and listings", "why_tests_cant": "the order of sets of strings changes from one process to the next", "anchors": ["trumania/core/util_functions.py:merge_2_dicts", "trumania/core/circus.py:Circus.run", "trumania/core/relationship.py:Relationship.add_relations", "trumania/core/operations.py:Chain"]}
{"id": "C85", "title": "Creating a story does not depend on the order of sets", "statement": "create_story has the same result and the same effects in two processes in which sets are iterated in different orders.", "quantifier": "all configurations of stories and orders of sets", "why_tests_cant": "the order of sets of strings changes from one process to the next", "anchors": ["trumania/core/story.py:Story", "trumania/core/util_functions.py:merge_2_dicts", "trumania/core/circus.py:Circus.create_story"]}
{"id": "C86", "title": "Relations are picked in proportion to their weights", "statement": "For each request in order, select_one uses the next number of the generator of the relationship and picks the relation in whose share of the weights of the from (or of the overriding weights) this number falls; the share of a relation is an interval of length weight / sum of the weights. A from with a single relation, or none, uses no number.", "quantifier": "all relationships, requests, options and random states", "why_tests_cant": "a probability cannot be observed on a finite number of runs", "anchors": ["trumania/core/relationship.py:Relationship.select_one", "trumania/core/relationship.py:Relations.pick_one"]}
{"id": "C87", "title": "Members return to the default state with their probability", "statement": "At the end of an execution, the members present that are in another state than default are given one number each, in order; exactly those whose number is below their probability return to default. The generator does not advance when the probabilities are all 0 or all 1.", "quantifier": "all stories, members and random states", "why_tests_cant": "a probability cannot be observed on a finite number of runs", "anchors": ["trumania/core/story.py:Story._MaybeBackToDefault"]}
{"id": "C88", "title": "Triggers and choices follow their probabilities", "statement": "A dependent trigger fires exactly for the observations whose number is below the probability given by the mapper; a choice generator with probabilities gives, for each number, the value in whose share the number falls. Both use one number per value, in order.", "quantifier": "all mappers, values, probabilities and random states", "why_tests_cant": "a probability cannot be observed on a finite number of runs", "anchors": ["trumania/core/random_generators.py:DependentTrigger.generate", "trumania/core/random_generators.py:NumpyRandomGenerator.generate"]}
{"id": "C89", "title": "Timers follow the profile and the activities", "statement": "For an activity a of at most 2 actions per cycle, the generated timer designates the date reached after 2u/a cycles, u being the next uniform number, where a fraction of cycle is read on the cumulated weights of the bins from the present one on; the numbers that lead to a given later bin form an interval of length (a/2) times the normalised weight of the bin. For an activity above 2, a number of the beta distribution of parameters 1 and a - 1 takes the place of the fraction of cycle.", "quantifier": "all profiles, clocks, dates, histories of the timer and activities", "why_tests_cant": "a probability cannot be observed on a finite number of runs", "anchors": ["trumania/core/clock.py:CyclicTimerGenerator.generate"]}
{"id": "C90", "title": "The parameters of a new story are those drawn for its members", "statement": "When a story is created, the activities, then the probabilities of returning to default, are drawn for each state from the generators of the state, as many as members; the k-th member gets, for each state, the k-th activity as activity and the k-th probability as probability.", "quantifier": "all populations with distinct ids, states and generators", "why_tests_cant": "all draws", "anchors": ["trumania/core/story.py:Story.__init__", "trumania/core/circus.py:Circus.create_story"]}
{"id": "C91", "title": "Operations that add a field put the right value in each row", "statement": "The operations that add one field (random values, bulks, dependent values, timestamps, neighbourhood sizes, applied functions, conditional copies) keep the rows, their order and the other fields, and put in the row of each member the value drawn or computed for this row: the k-th value drawn in the k-th row, bulks of the length asked by the row, the copied value exactly where the condition holds. Timestamps are within the current step of the clock.", "quantifier": "all story data with distinct index, fields, generators, clocks and functions", "why_tests_cant": "all tables and draws", "anchors": ["trumania/core/operations.py:AddColumns", "trumania/core/operations.py:Apply", "trumania/core/random_generators.py:Generator.ops", "trumania/core/clock.py:Clock.ClockOps"]}
{"id": "C92", "title": "Selections join to each row what was selected for it", "statement": "select_one adds to each row a to related to the from of the row, or an empty cell when there is none, or drops the row if so asked; one_to_one never gives a to to two rows. A to whose weight is 0 is never joined to a row whose from has several relations. select_many gives each row a list no longer than its quantity, the lists of the rows of one from being disjoint parts of its relations, as many as asked or as available. Without pop the relationship keeps its relations; with it, it loses those selected. The other rows, fields and objects do not change.", "quantifier": "all reachable relationships, story data with distinct index, options and random states", "why_tests_cant": "all tables, relations and draws", "anchors": ["trumania/core/relationship.py:Relationship.RelationshipOps"]}
{"id": "C93", "title": "Operations on relationships add one relation per item and remove those listed", "statement": "add gives the relationship one relation per row and add_grouped one relation per element of the list of each row, with weight 1, and no other object changes; remove takes away exactly the relations listed by the rows.", "quantifier": "all reachable relationships and story data", "why_tests_cant": "all tables and relations", "anchors": ["trumania/core/relationship.py:Relationship.RelationshipOps.Add", "trumania/core/relationship.py:Relationship.RelationshipOps.AddGrouped", "trumania/core/relationship.py:Relationship.RelationshipOps.Remove"]}
{"id": "C94", "title": "Operations on stories act on exactly the members named", "statement": "force_act_next forces exactly the members named in the id field of the rows that satisfy the condition; reset_timers draws again exactly the timers of the members named (or acting) that are not forced; transit_to_state changes the state of exactly the members named by rows that satisfy the condition and have a state, to the state of the last such row. Empty cells name nobody. All other timers, states and objects are kept. transit_to_state refuses to be built with both or none of a state and a state field.", "quantifier": "all story data, conditions, stories and states", "why_tests_cant": "all tables and stories", "anchors": ["trumania/core/story.py:Story.StoryOps"]}
{"id": "C95", "title": "The dataframe of a population shows all its attributes", "statement": "to_dataframe has one row per member, in order, one column per attribute and the value of the attribute for the member in each cell; it raises KeyError if some attribute has no value for some member. Updating a population with its own dataframe changes nothing.", "quantifier": "all well-formed populations", "why_tests_cant": "all populations", "anchors": ["trumania/core/population.py:Population.to_dataframe", "trumania/core/population.py:Population.update"]}
{"id": "C96", "title": "Logs say who acted and when", "statement": "When a story dates its rows with the clock and then logs them, each execution gives at most one table under this name, and exactly one if some member acts. Its rows are distinct acting members, each named by its own id and dated within the current step of the clock; with operations that keep rows they are all the acting members, in order. Over a run the logged dates are those of the steps of the clock, in chronological order when the dates are not randomised and never out of order by a step or more otherwise. The file of the log has these rows.", "quantifier": "all stories of this shape, circuses, executions and runs", "why_tests_cant": "all histories, populations and clocks", "anchors": ["trumania/core/clock.py:Clock.ClockOps.Timestamp", "trumania/core/operations.py:FieldLogger", "trumania/core/story.py:Story.execute", "trumania/core/circus.py:Circus.run"]}
{"id": "C97", "title": "Triggered stories act once per trigger", "statement": "When a story does not reset its timers and its members are only forced or reset by their own actions in other stories, then at any time of a run no member has acted in it more often than in those stories, plus once if it was scheduled at the start; each action in a story that resets it schedules the member again, unless it is forced already. In the geography of Uganda, no cell is repaired more often than it broke down.", "quantifier": "all circuses, stories of this shape, and runs", "why_tests_cant": "all histories, populations and clocks", "anchors": ["trumania/core/story.py:Story.execute", "trumania/core/story.py:Story.StoryOps.ResetTimers", "trumania/components/geographies/uganda.py:WithUganda.add_uganda_geography"]}
{"id": "C98", "title": "Saved distributions are restored with the seed asked for", "statement": "A distribution whose total exceeds 1 by less than a millionth, saved with as many values that a CSV file keeps, is loaded as a generator that draws from the same values with the same probabilities, from the state of the seed given; saving writes nothing but its file and the folders on its way. Larger totals are refused before anything is written; different numbers of values and probabilities are refused without writing any file. The loaded generator draws values of positive probability only, and draws at all if and only if no probability is negative and the total is 1 up to the tolerance of numpy: totals below 1 are saved and loaded, but their draws raise.", "quantifier": "all distributions, values, namespaces, file systems and seeds", "why_tests_cant": "all distributions and file systems", "anchors": ["trumania/components/db.py:save_empirical_discrete_generator", "trumania/components/db.py:load_empirical_discrete_generator"]}
{"id": "C99", "title": "A namespace with a generator of an unknown type cannot be loaded", "statement": "If the generators of a namespace hold any file in a folder other than those of the two types that can be loaded, load_from_db never returns a circus. In particular this is so once an empirical distribution has been saved in the namespace.", "quantifier": "all file systems, namespaces, types and circuses", "why_tests_cant": "all contents of the database", "anchors": ["trumania/core/circus.py:Circus.load_from_db", "trumania/components/db.py:list_generators", "trumania/core/random_generators.py:Generator.load_generator", "trumania/components/db.py:save_empirical_discrete_generator"]}
{"id": "C100", "title": "Items move between stocks without being lost or duplicated", "statement": "In a circus in which every story only moves items (each row of the story data picks and pops one item from a stock with select_one, dropping the rows without items, and add puts it in a stock; either one_to_one, or each row takes from its own member's stock; the other operations change no stock), all the stocks together hold, after any run, exactly the items they held at the start, with repetitions. In each move the giver of a row loses exactly the item that the taker of the row gets, and had it; the same for select_many and add_grouped with a natural quantity per row and distinct givers. Without one_to_one an item can be handed to two rows and popped once; without discard_empty empty items are added to the stock.", "quantifier": "all circuses, stories of this shape, numbers of stocks and runs", "why_tests_cant": "all histories and random draws", "anchors": ["trumania/core/relationship.py:Relationship.RelationshipOps.SelectOne", "trumania/core/relationship.py:Relationship.RelationshipOps.SelectMany", "trumania/core/relationship.py:Relationship.RelationshipOps.Add", "trumania/core/relationship.py:Relationship.RelationshipOps.AddGrouped", "trumania/core/story.py:Story.execute", "trumania/core/circus.py:Circus.run"]}
{"id": "C101", "title": "Well-formed circuses run without raising", "statement": "Declare for each generator, relationship, attribute and story which values it takes, and for each operation which columns of which kind it reads and adds. If the circus is as declared, every operation of every story reads columns of the kind it needs (ids of known members, items with a positive weight, whole quantities, boolean conditions, known states, ids of the acting members for an attribute update) and adds columns of new names, and the folder of the logs can be created, then run completes without raising, for every duration, and leaves a circus that is as declared. The operation that set_operations appends is covered, as are sequence, uniform, choice, trigger and cyclic timer generators. Each of these conditions matters: repeated ids in an attribute update, an unknown state, or an existing column name raise.", "quantifier": "all circuses and stories made of the built-in operations, all random draws, durations and log folders", "why_tests_cant": "all histories, random draws and durations", "anchors": ["trumania/core/circus.py:Circus.run", "trumania/core/story.py:Story.execute", "trumania/core/operations.py:Chain", "trumania/core/relationship.py:RelationshipOps", "trumania/core/population.py:PopulationOps", "trumania/core/attribute.py:AttributeOps", "trumania/core/story.py:StoryOps"]}
{"id": "C102", "title": "The logistic curve", "statement": "logistic gives a value strictly between 0 and L, which is L/2 at the midpoint, grows with x for a positive steepness and decreases for a negative one. It equals the documented function L/(1+exp(-k(x-x0))) wherever this one is at least L/(1+e^10), and this floor everywhere else: it does not tend to 0.", "quantifier": "all real parameters with positive L, and all real x", "why_tests_cant": "all real numbers", "anchors": ["trumania/core/operations.py:logistic"]}
{"id": "C103", "title": "Faker generators are repeatable", "statement": "generate gives as many values as asked, and the values of a Faker generator depend on its seed and on the calls made on it only. All generators draw from one stream, which each construction seeds again.", "quantifier": "all seeds, methods, generators and interleavings of their constructions and calls", "why_tests_cant": "all interleavings of constructions and calls", "anchors": ["trumania/core/random_generators.py:FakerGenerator"]}
{"id": "C104", "title": "The logs are an account of the stock", "statement": "Take a stock from which stories sell with select_one (one_to_one, pop) and log the giver and the item of each row, and to which stories deliver with add_grouped and log the taker and the number of items, all other operations leaving the stock and these columns alone. Then after any run, what an owner holds plus the items sold in its name in the logs is at most what it held at the start plus the quantities delivered to it in the logs, with equality if none of its items is empty; so the logs never tell more sales than there were items. An owner to which no story delivers holds at the start exactly what it holds at the end plus its sales in the logs. Without one_to_one this is false.", "quantifier": "all circuses with stories of this shape, owners, random draws and runs", "why_tests_cant": "all histories and random draws", "anchors": ["trumania/core/relationship.py:Relationship.RelationshipOps.SelectOne", "trumania/core/relationship.py:Relationship.RelationshipOps.AddGrouped", "trumania/core/operations.py:FieldLogger", "trumania/core/story.py:Story.execute", "trumania/core/circus.py:Circus.run"]}
{"id": "C105", "title": "The SND scenario: the broke dealer makes at most three sales", "statement": "However the scenario of test_snd.py is parameterised and whatever is drawn, if its constructor completes, and the ids of the dealers are not broke_dealer, then at any moment of any run the SIMs that the broke dealer holds and the sales of SIMs in its name in the log of purchases are three in total, and at most three of the purchases from it are not flagged as failed, as the test asserts. The ids made by the sequence generator of the scenario are never broke_dealer.", "quantifier": "all parameters, seeds, random draws, graphs, durations and log folders", "why_tests_cant": "all parameters, histories and random draws; the test runs one seed", "anchors": ["tests/scenarios/test_snd.py:SndScenario", "tests/scenarios/test_snd.py:test_snd_scenario"]}
{"id": "C106", "title": "The SND scenario: no SIM is lost, none is held twice", "statement": "In any run of the circus that the scenario of test_snd.py builds, the SIMs held by the distributors, the dealers and the agents are together, with repetitions, the SIMs that the dealers were given first and the ids that the sequence generator of the distributors has given so far; with the ids of the test they are all distinct.", "quantifier": "all parameters, seeds, random draws, graphs and runs", "why_tests_cant": "all parameters, histories and random draws", "anchors": ["tests/scenarios/test_snd.py:SndScenario", "trumania/core/relationship.py:Relationship.select_many", "trumania/core/relationship.py:Relationship.RelationshipOps.SelectMany"]}
{"id": "C107", "title": "The values do not depend on how the calls are cut", "statement": "If the numbers of a numpy generator form one stream, then so do the values of constant, sequential, uniform, choice and Pareto generators, and of what map makes of them in a circus: any series of calls gives the same values in the same order, and leaves the same state, as one call for the total. The same holds of dependent generators and their observations: constants, bulk generators, triggers that map observations one by one, and cyclic timers without activities above 2; a bulk generator hands out the values of one call for the total, cut in pieces. It does not hold of MSISDN generators, which permute the remaining numbers at each call, nor of cyclic timers with activities above 2.", "quantifier": "all generators of these kinds, parameters, states, sizes and observations", "why_tests_cant": "all sizes, parameters and random streams", "anchors": ["trumania/core/random_generators.py:NumpyRandomGenerator.generate", "trumania/core/random_generators.py:SequencialGenerator.generate", "trumania/core/random_generators.py:ParetoGenerator.generate", "trumania/core/random_generators.py:DependentTrigger.generate", "trumania/core/random_generators.py:DependentBulkGenerator.generate", "trumania/core/random_generators.py:MSISDNGenerator.generate", "trumania/core/clock.py:CyclicTimerGenerator.generate"]}
{"id": "C108", "title": "Logged values are values of the generators", "statement": "In any run, each value of a field that stories draw from a generator and log is one that the generator, with the parameters it had when the run started, can give: a uniform number between the bounds, one of the choices and of positive probability, a Pareto number above the minimum, one of the phone numbers that were left, a whole number of steps or none for a timer, a boolean for a trigger, a list of values of the element generator for a bulk generator, and the images of such values by map. It does not matter what else the stories do, nor who else uses the generator.", "quantifier": "all circuses, stories that draw the field and log it or do not write this log, random draws and runs", "why_tests_cant": "all histories and random draws", "anchors": ["trumania/core/random_generators.py:GeneratorOps.RandomValues", "trumania/core/random_generators.py:DependentGeneratorOps.RandomValuesFromField", "trumania/core/operations.py:FieldLogger", "trumania/core/story.py:Story.execute", "trumania/core/circus.py:Circus.run"]}
{"id": "C109", "title": "The members of a story act around the active hours of its timer", "statement": "In a story that reschedules its members with a cyclic timer and whose members no operation forces or resets, a member acts, in any run, only in a clock step to which the profile gives some weight, or right after such a step, or at the point of the cycle where its initial timer leads. The initial timers of a new story lead one step before a step with weight, or to the current step if it has weight. With the work hours profile and a clock of one hour, members thus act from Monday to Friday only, from one hour before the work hours to one hour after. They do act in these two extra hours, whose weight is 0. Assumes that no random draw is exactly 0.", "quantifier": "all profiles whose cycle is a whole number of clock steps, circuses, random draws and runs", "why_tests_cant": "all histories and random draws; the tests only look at averages", "anchors": ["trumania/core/clock.py:CyclicTimerGenerator.generate", "trumania/core/story.py:Story.execute", "trumania/core/story.py:Story.reset_timers", "trumania/components/time_patterns/profilers.py:WorkHoursTimerGenerator", "trumania/core/circus.py:Circus.run"]}
{"id": "C110", "title": "The CDR scenario: the logs are an account of the balances", "statement": "In any run of the six stories of test_cdr.py, the account of a SIM whose number no other SIM has is what it was at the start, less the values of the calls and messages that the logs tell of this number as caller, plus the values of the top-ups that they tell of it. The numbers and the operators of the SIMs never change.", "quantifier": "all circuses with the populations, relationships and stories of the scenario, generators, random draws, orders of execution and runs", "why_tests_cant": "all histories and random draws", "anchors": ["tests/scenarios/test_cdr.py:CdrScenario.add_communications", "tests/scenarios/test_cdr.py:CdrScenario.add_topups", "tests/scenarios/test_cdr.py:compute_call_value", "trumania/core/attribute.py:AttributeOps.Update", "trumania/core/operations.py:FieldLogger"]}
{"id": "C111", "title": "The CDR scenario: what the records of calls and messages say", "statement": "In any run, each record of voice_cdr and sms_cdr is of two subscribers who are friends, with the numbers and the operators of one SIM of each; if the two have an operator in common, the two SIMs are of the same operator; the type is ONNET exactly if both are of OPERATOR_0; the cells are those of the two subscribers when the record is logged; a call costs two per second, or nothing is known of both, and a message costs 10. The SIMs and friends of the run are those of its start.", "quantifier": "all circuses with the populations, relationships and stories of the scenario, generators, random draws and runs, if no subscriber id is missing", "why_tests_cant": "all histories and random draws", "anchors": ["tests/scenarios/test_cdr.py:select_sims", "tests/scenarios/test_cdr.py:compute_cdr_type", "tests/scenarios/test_cdr.py:compute_call_value", "tests/scenarios/test_cdr.py:compute_sms_value", "tests/scenarios/test_cdr.py:CdrScenario.add_communications"]}
{"id": "C112", "title": "The CDR scenario: in one step, one talk for each", "statement": "In one execution of the story of calls, or of messages, no two records are of the same caller, of the same callee or of the same SIM of the caller; so no account is updated twice from one balance.", "quantifier": "all circuses with the populations, relationships and stories of the scenario, generators, random draws and executions, if no subscriber id is missing", "why_tests_cant": "all states and random draws", "anchors": ["tests/scenarios/test_cdr.py:CdrScenario.add_communications", "trumania/core/relationship.py:Relationship.select_one", "trumania/core/attribute.py:AttributeOps.Update"]}
{"id": "C113", "title": "The CDR scenario: the log of moves is a journey", "statement": "In any run, the logged moves of a subscriber lead from its cell at the start to its cell at the end, each move beginning where the one before it ended, and each leads to one of the possible cells of the subscriber, or nowhere if there is none.", "quantifier": "all circuses with the populations, relationships and stories of the scenario, generators, random draws, orders of execution and runs", "why_tests_cant": "all histories and random draws", "anchors": ["tests/scenarios/test_cdr.py:CdrScenario.add_mobility", "trumania/core/relationship.py:RelationshipOps.SelectOne", "trumania/core/attribute.py:AttributeOps.Update"]}
{"id": "C114", "title": "The CDR scenario: what the records of top-ups say", "statement": "Each record of topups gives the number and the operator of a SIM, an agent that is possible for this SIM, the amount of 1000, the account of the SIM before and after, which differ by 1000, and no two records of one execution are of the same SIM.", "quantifier": "all circuses with the populations, relationships and stories of the scenario, generators, random draws and executions", "why_tests_cant": "all states and random draws", "anchors": ["tests/scenarios/test_cdr.py:CdrScenario.add_topups"]}
{"id": "C115", "title": "The CDR scenario: the circus that the constructor builds", "statement": "If the constructor completes, the circus has the populations, relationships and stories that the previous properties ask for. Each SIM belongs to one subscriber, the operators of the SIMs of a subscriber are those drawn for this subscriber, and there is 1000 on each account. Friends are subscribers, and friendship goes both ways. Agents and possible cells are those that exist, and a subscriber is in one of its possible cells. No two SIMs have the same number. Hence at any moment of any run the account of a SIM is 1000, less what the logs say its number spent, plus what they say it was topped up; and each record of a call or message is of two different subscribers, and two different SIMs, if the graph of friends has no loops.", "quantifier": "all parameters, seeds, random draws, graphs and runs", "why_tests_cant": "all parameters, histories and random draws; the test runs one seed", "anchors": ["tests/scenarios/test_cdr.py:CdrScenario.__init__", "tests/scenarios/test_cdr.py:CdrScenario.create_subs_and_sims", "tests/scenarios/test_cdr.py:CdrScenario.add_mobility", "tests/scenarios/test_cdr.py:CdrScenario.add_topups", "trumania/components/geographies/uganda.py:build_uganda_populations", "trumania/core/random_generators.py:MSISDNGenerator.generate"]}
{"id": "C116", "title": "The CDR scenario: the status of a call tells of the two cells", "statement": "In any run, each record of voice_cdr and sms_cdr has the status OK if the trigger accepted for both the cell of the caller and the cell of the callee, and DROPPED otherwise; what it answered for a cell, it answered to the health that this cell had when the record was made. With a trigger generator, two cells of probability at least 1 give OK and a cell of probability at most 0 gives DROPPED. This holds in all runs from the circus that the constructor builds.", "quantifier": "all circuses with the populations, relationships and stories of the scenario, generators, random draws and runs", "why_tests_cant": "all histories and random draws", "anchors": ["tests/scenarios/test_cdr.py:compute_call_status", "tests/scenarios/test_cdr.py:CdrScenario.add_communications", "trumania/core/random_generators.py:DependentTriggerGenerator"]}
{"id": "C117", "title": "The CDR scenario: a SIM is topped up after a call or a message, and if the trigger says so", "statement": "A story other than the top-ups changes the timer of a SIM in the story of the top-ups only in an execution that logs a call or a message of its number. It then sets it to zero, for the next execution of the top-ups, if the recharge trigger answers true to the balance that remains on the account, and leaves it as it was otherwise. The top-ups log at most one record for a number, only for a SIM whose timer is zero, and nobody is scheduled by the top-ups themselves. Hence in any run no SIM that was not scheduled at the start is topped up more often than it called and sent messages; in the circus that the constructor builds none is scheduled.", "quantifier": "all circuses with the populations, relationships and stories of the scenario, generators, random draws, orders of execution and runs, if no two SIMs have the same number", "why_tests_cant": "all histories and random draws", "anchors": ["tests/scenarios/test_cdr.py:CdrScenario.add_communications", "tests/scenarios/test_cdr.py:CdrScenario.add_topups", "trumania/core/story.py:StoryOps.ForceActNext", "trumania/core/story.py:Story.execute", "trumania/core/random_generators.py:DependentTriggerGenerator"]}
{"id": "C118", "title": "The points of sale of the tutorial: stocks are what the logs add up to", "statement": "In any run of the stories of step 4 or of step 5, a point of sale has at any moment as many items as it had in the beginning, plus the volumes that the log of restocks tells to have been delivered to it, minus the purchases that the log of purchases tells to have been made there. Each record of the log of reports is of one point of sale and tells this number, computed from the records that were logged before it.", "quantifier": "all circuses with the populations, relationships and stories of the example, generators, random draws, orders of execution and runs", "why_tests_cant": "all histories and random draws", "anchors": ["examples/tutorial/example2.py:add_report_story", "examples/tutorial/example2.py:add_periodic_restock_story", "examples/tutorial/example2.py:create_purchase_story", "examples/tutorial/example2.py:add_inactive_restock_story"]}
{"id": "C119", "title": "The points of sale of the tutorial: what a restock tells", "statement": "In any run of the stories of step 4 or of step 5, the restocks that one execution logs are of different points of sale; each bears the name of its point of sale, and its volume is one of those of the generator of volumes. In step 5 the previous stock level is what the records logged before the restock add up to, and the new level is this plus the volume.", "quantifier": "all circuses with the populations, relationships and stories of the example, generators, random draws, orders of execution and runs", "why_tests_cant": "all histories and random draws", "anchors": ["examples/tutorial/example2.py:add_periodic_restock_story", "examples/tutorial/example2.py:add_inactive_restock_story"]}
{"id": "C120", "title": "The points of sale of the tutorial: items are neither lost, duplicated nor bought twice", "statement": "In any run of the stories of step 4 or of step 5, the customers own the items that they had in the beginning and those that the log of purchases tells that they bought. If each item id drawn so far is in one place in the beginning, at a point of sale or with a customer, so is each id drawn so far at any moment, and no item is bought twice. Each record of a purchase names the customer, with first and last name, a point of sale among those that the generator chooses from, the company of this point of sale, and an item that was in its stock; a customer buys at most one item in an execution.", "quantifier": "all circuses with the populations, relationships and stories of the example, generators, random draws, orders of execution and runs", "why_tests_cant": "all histories and random draws", "anchors": ["examples/tutorial/example2.py:create_purchase_story", "examples/tutorial/example2.py:add_items_to_pos_stock", "trumania/core/relationship.py:RelationshipOps.SelectOne", "trumania/core/random_generators.py:SequencialGenerator"]}
{"id": "C121", "title": "The points of sale of the tutorial: who is restocked, and when", "statement": "In step 5, an execution of another story than the restocks asks the restock trigger once for each purchase that it logs, about the stock that the point of sale has after the purchases; it sets the timer of the point of sale to zero, for the next execution of the restocks, if one of the answers is true, and changes no timer otherwise. An execution of the restocks restocks exactly the points of sale whose timer is zero, once each, and schedules nobody. Hence in any run: after purchases that leave a stock where the probability is at least 1, the next execution of the restocks restocks the point of sale; a point of sale is restocked only after a purchase that left a stock where the probability is positive, with no restock since; it is not restocked more often than items were bought there; and if the probability is 0 above some level, no restock tells of a previous stock above it and no stock exceeds this level plus the biggest volume, or what it was in the beginning.", "quantifier": "all circuses with the populations, relationships and stories of the example, generators, random draws, orders of execution and runs, points of sale that are not scheduled at the start", "why_tests_cant": "all histories and random draws", "anchors": ["examples/tutorial/example2.py:update_purchase_story", "examples/tutorial/example2.py:add_inactive_restock_story", "trumania/core/story.py:StoryOps.ForceActNext", "trumania/core/story.py:Story.execute", "trumania/core/story.py:Story.append_operations"]}
{"id": "C122", "title": "The points of sale of the tutorial: the circus that steps 4 and 5 build", "statement": "If step 4 or step 5 completes, the circus is one of those that the previous properties ask for: each point of sale has the given number of items, nobody else has any, and the items are the first ids of their generator, once each; in step 5 no point of sale is scheduled for a restock. Hence in any run: each report tells the initial number of items, plus the deliveries, minus the sales that were logged before it; the log never tells of more sales at a point of sale than it had items and deliveries; the customers own what the log of purchases tells; no item is lost, duplicated or sold twice. With the numbers of the example (5 items, volumes 5, 15, 20 and 25, a sigmoid between 2 and 10), a point of sale never has more than 34 items, no restock finds more than 9 items, and sales that leave 2 items or less are followed by a restock at the next execution of the restocks.", "quantifier": "all numbers of points of sale, customers and items, seeds, random draws, orders of execution and runs", "why_tests_cant": "all parameters, histories and random draws", "anchors": ["examples/tutorial/example2.py:step4", "examples/tutorial/example2.py:step5", "examples/tutorial/example2.py:create_pos_population", "examples/tutorial/example2.py:add_items_to_pos_stock", "examples/tutorial/example2.py:create_customer_population", "examples/tutorial/example2.py:create_purchase_story", "examples/tutorial/example2.py:update_purchase_story", "trumania/core/operations.py:bounded_sigmoid"]}
{"id": "C123", "title": "The health of the cells is told by their log, and with it the status of the calls", "statement": "In the CDR scenario, the break-downs and the repairs log one record for each cell that acts, and no other story logs any. At each moment the health of a cell is the last level that was logged for it, or the one drawn for it in the beginning if none was. The levels logged by the break-downs are drawn from the generator of unhealthy levels, those logged by the repairs from the one of healthy levels; the seeds of these generators do not depend on the one of the circus. Hence the logs alone tell the status of a call or of a message: each of the two cells lets it through as the trigger answers to the last level logged for the cell before the record.", "quantifier": "all parameters of the scenario, seeds, random draws, orders of execution and runs", "why_tests_cant": "all histories of break-downs, repairs and calls, whatever is drawn", "anchors": ["trumania/components/geographies/uganda.py:WithUganda.add_uganda_geography", "trumania/components/geographies/uganda.py:build_uganda_populations", "tests/scenarios/test_cdr.py:CdrScenario.add_communications"]}
{"id": "C124", "title": "A story with a constant timer acts at regular intervals, and the points of sale of the tutorial report once a day", "statement": "If the timer generator of a story is the constant c, its members have this timer in the beginning, none has activity 0, and no operation forces or resets them, then in the k-th execution of the story all of its members act if k is a multiple of c + 1, and nobody otherwise. If they are dated with the clock and logged, the log tells of all of them at each such execution, and of nothing else. A story that is created with a constant timer, a constant activity other than 0 and no other states is such a story. Hence in each of the steps 1, 2, 3, 3 bis, 4 and 5 of the tutorial, built and then run for any duration: with n the least number of clock steps that cover a day, each point of sale reports at the step n, 2n, and so on, counted from 1, once each time, and never else; if the step divides a day, this is the last step of each day.", "quantifier": "all worlds, chains of built-in operations, orders of execution and runs; all parameters, seeds, steps of the clock, durations and random draws of the six steps", "why_tests_cant": "all durations, clock steps and histories", "anchors": ["trumania/core/story.py:Story.execute", "trumania/core/story.py:Story.timer_tick", "trumania/core/story.py:Story.reset_timers", "examples/tutorial/example2.py:add_report_story", "examples/tutorial/example2.py:step1", "examples/tutorial/example2.py:step2", "examples/tutorial/example2.py:step3", "examples/tutorial/example2.py:step3_bis", "examples/tutorial/example2.py:step4", "examples/tutorial/example2.py:step5", "trumania/core/clock.py:Clock.n_iterations"]}
{"id": "C125", "title": "The points of sale of the tutorial: what the reports of the steps without sales tell", "statement": "In any run of the stories of step 1, 2, 3 or 3 bis, a point of sale has the items that it had in the beginning, plus the total of as many volumes as the log tells restocks of it, each of them among those that the generator of volumes chooses from; in step 3, where the volumes are logged, this total is that of the logged volumes. Each report tells this level, according to what was logged before it. The items remain the first ids of their generator, once each. If step 1 completes, the points of sale have no item; if step 2, 3 or 3 bis completes, they have the given number each. Hence all reports of step 1 tell 0, all those of step 2 tell the given number, and those of steps 3 and 3 bis tell at least this number plus the smallest volume per restock logged before, at most this number plus the biggest one per restock.", "quantifier": "all numbers of points of sale and items, seeds, random draws, orders of execution and runs", "why_tests_cant": "all parameters, histories and random draws", "anchors": ["examples/tutorial/example2.py:step1", "examples/tutorial/example2.py:step2", "examples/tutorial/example2.py:step3", "examples/tutorial/example2.py:step3_bis", "examples/tutorial/example2.py:add_periodic_restock_story", "examples/tutorial/example2.py:add_periodic_restock_story_with_combined_generator", "examples/tutorial/example2.py:add_report_story", "trumania/core/random_generators.py:DependentBulkGenerator", "trumania/core/random_generators.py:Generator.flatmap"]}
{"id": "C126", "title": "The listeners of the tutorial: what the records of listened and shared songs tell", "statement": "In any run of the stories of step 2, 3 or 4, an execution of a story logs one record for each user who acts, in the log of that story and in no other, or nothing if nobody acts. Each record has the fields of its log; it tells the id of the user, the first and last names of this user, a member of the genres and a song of this genre; in step 4 also the artist, title, year and duration that the song has in the population of the songs; and for a share the id of a user. The populations and the songs of the genres never change. If a step completes, the genres and the users are numbered in order, each genre has the given number of songs, and these are the first ids of their generator, once each; in step 4 they are the members of the population of the songs, which has a value of each attribute for each of them, and the song_genre of a song is the name of its genre. Hence in any run of step 4 the song of a record has for song_genre the name of the genre of the record, and its year and duration are integers. The activities of the users are between 10 and 30 and remain so.", "quantifier": "all numbers of genres, songs, users and artists, seeds, random draws, orders of execution and runs; at least one song for each genre", "why_tests_cant": "all parameters, histories and random draws", "anchors": ["examples/tutorial/example3.py:step2", "examples/tutorial/example3.py:step3", "examples/tutorial/example3.py:step4", "examples/tutorial/example3.py:add_music_repo", "examples/tutorial/example3.py:add_songids_to_repos", "examples/tutorial/example3.py:add_listener", "examples/tutorial/example3.py:add_listen_story", "examples/tutorial/example3.py:add_listen_and_share_stories", "examples/tutorial/example3.py:add_song_populations", "examples/tutorial/example3.py:add_listen_and_share_stories_with_details", "trumania/core/population.py:Population.update"]}
{"id": "C127", "title": "The persons of the tutorial: who says hello, and what the records tell", "statement": "In any run of the story of one of the steps 1 to 7, each execution logs one table, in the log hello and in no other: one record for each person, in order; in steps 6 and 7, for each person that has a friend. Without persons nothing is logged. Each record has the fields of the step, in order; it tells the id of the person, its name, the greeting, a date in the step of the clock; in step 3 any of the sites, from step 4 on one of the five sites of the person; in steps 6 and 7 one of its friends with its name, which has not the popularity 0 unless it is the only one; in step 7 one of the sites of this friend, and a price in EUR that is a twentieth of the duration. Persons, sites and friends never change. If a step completes, the persons are numbered in order and have the attributes of the step, each of them has one site for each of the five weights of the step, the friends are persons, all with the weight 1, and the weights of the friends are their popularities. Hence the log of a whole run tells of the same persons as often as there are clock steps in the duration.", "quantifier": "all numbers of persons and sites, seeds, random draws, orders of execution, durations and runs", "why_tests_cant": "all parameters, histories and random draws", "anchors": ["examples/tutorial/example1.py:step1", "examples/tutorial/example1.py:step2", "examples/tutorial/example1.py:step3", "examples/tutorial/example1.py:step4", "examples/tutorial/example1.py:step5", "examples/tutorial/example1.py:step6", "examples/tutorial/example1.py:step7", "trumania/core/relationship.py:Relationship.RelationshipOps", "trumania/core/clock.py:Clock.ClockOps"]}
{"id": "C128", "title": "Namespaces of the database, and the parameters kept with a circus", "statement": "Creating a namespace where no file is in the way returns its folder and makes it existing, with the folders on its way; what was there is kept, nothing else appears, and creating it again changes nothing. Removing a namespace leaves nothing at its folder or below and keeps all the rest, the other namespaces among it. Parameters are refused, without writing anything, if the namespace does not exist; otherwise they are in a file of their own per type, and nothing else changes. But saving a circus with overwrite leaves only its configuration, its populations and its generators in its folder: the parameters saved before are lost.", "quantifier": "all file trees, names, depths, orders of directory listings and circuses", "why_tests_cant": "all trees and listing orders", "anchors": ["trumania/components/db.py:create_namespace", "trumania/components/db.py:remove_namespace", "trumania/components/db.py:is_namespace_existing", "trumania/core/circus.py:Circus.save_params_to_db", "trumania/core/circus.py:Circus.save_to_db"]}
{"id": "C129", "title": "Descriptions of a circus", "statement": "The description of a circus, when it can be made, tells its name and master seed and has an entry for each population and each attached generator and for nothing else: size, names of attributes and of relationships, description of the generator. But a circus with at least one population is never printed: str(circus) raises, a TypeError if the description could be made. Without populations it is printed exactly when no attached generator is a dependent one (timer, trigger, bulk), which have no description.", "quantifier": "all circuses and generators of the library", "why_tests_cant": "all circuses", "anchors": ["trumania/core/circus.py:Circus.description", "trumania/core/circus.py:Circus.__str__", "trumania/core/population.py:Population.description", "trumania/core/population.py:Population.attribute_names", "trumania/core/random_generators.py:Generator.description", "trumania/core/random_generators.py:NumpyRandomGenerator.description", "trumania/core/random_generators.py:SequencialGenerator.description"]}
{"id": "C130", "title": "The supply network: failed purchases are tried again", "statement": "In the network of the test of the supply network, built with any parameters and run in any way: when the story of the purchases is executed, each line of the log of purchases is that of an agent who acts. An agent who acts and whose purchase is logged as failed acts again in the next execution of this story, whatever the other stories do before it (restocks, bulk purchases, holidays, reviews). An agent who acts and has no failed purchase (it bought a SIM, or the SIM that it drew went to another agent, in which case nothing is logged of it) gets the timer that the generator of the story answers to the activity it then has, or -1 if this activity is zero.", "quantifier": "all parameters, seeds, random draws, states and orders of execution; the ids of the agents are not empty values", "why_tests_cant": "all states, histories and random draws", "anchors": ["tests/scenarios/test_snd.py:SndScenario.add_agent_sim_purchase_story", "trumania/core/story.py:Story.execute", "trumania/core/story.py:Story.force_act_next", "trumania/core/story.py:Story.timer_tick", "trumania/core/story.py:Story.reset_timers"]}
{"id": "C131", "title": "The examples of the blog: who writes to whom, and when", "statement": "In the examples 3 to 6 of the blog, with any number of persons, any generators and any random draws, and in any run of what they build: the story of an example writes only in the log of this example, and each of its executions writes one record for each person whose timer is 0, in the order of the persons, and nothing if there is none. A record has six fields: the person, its name, a date inside the step of the clock, a message, another person and the name of this other person. The message is 'hello world' in example 3, and in the others one of the four quotes drawn for this person, and never one that it only has with weight 0. The names were given by the generator of names, and the quotes by the generator of sentences. The other person is any person of the population (it may be the person itself), and in example 6 one of its friends, friendship being mutual and never with oneself. In examples 3 and 4, all persons write at the second execution, at the fourth one, and so on, and nobody in between, so that the whole log is known. In examples 5 and 6 the activities of the persons are 3, 10 or 20. In example 6, the run fails if a person who must write has no friend.", "quantifier": "all numbers of persons, generators, seeds, random draws, durations and states that the examples reach", "why_tests_cant": "all states, histories and random draws", "anchors": ["examples/datacamp-blogpost/03-someone-to-say-hello-world-to.py", "examples/datacamp-blogpost/04-you-always-say-that.py", "examples/datacamp-blogpost/05-it-aint-what-yo-do-it-s-the-time-that-you-do-it.py", "examples/datacamp-blogpost/06-the-social-network.py", "trumania/core/story.py:Story.execute", "trumania/core/relationship.py:Relationship.select_one", "trumania/components/social_networks/erdos_renyi.py:WithErdosRenyi.add_er_social_network_relationship"]}
{"id": "C132", "title": "The examples of the tutorial and of the blog run to the end", "statement": "Once one of the steps 1 to 7 of the first example of the tutorial, one of the steps 1 to 5 (or 3bis) of the second one, one of the steps 1 to 4 of the third one, or one of the examples 3 to 6 of the blog, is built, with any number of persons and any random draws, its run never raises, whatever its duration. For this the steps of the clock must last at least one second (random dates are drawn inside them; in the third example of the tutorial, which draws none, they must be positive); the generators of durations and timers must always give numbers, and those of the volumes of restocks numbers of items; in the first example of the tutorial there must be a site and, in steps 6 and 7, all popularities must be positive; in steps 4 and 5 of the second one there must be a point of sale; in steps 2 to 4 of the third one there must be a genre, each genre must have songs and, in steps 3 and 4, there must be a user; in the blog there must be a person and, in example 6, every person must have a friend. The folder of the logs must be absent or be deleted by the run, and no file may be in the way of its creation. Popularities of 0 do make step 7 raise, without points of sale step 4 of the second example does, without genres step 2 of the third one does, and in example 6 a person without friends makes it raise as soon as its turn to write comes.", "quantifier": "all numbers of persons and sites, generators, seeds, random draws, durations of the run, file trees", "why_tests_cant": "all histories and random draws; a run that raises after days of simulated time is not found by running it for a few steps", "anchors": ["examples/tutorial/example1.py:step1", "examples/tutorial/example1.py:step2", "examples/tutorial/example1.py:step3", "examples/tutorial/example1.py:step4", "examples/tutorial/example1.py:step5", "examples/tutorial/example1.py:step6", "examples/tutorial/example1.py:step7", "examples/tutorial/example2.py:step1", "examples/tutorial/example2.py:step2", "examples/tutorial/example2.py:step3", "examples/tutorial/example2.py:step3_bis", "examples/tutorial/example2.py:step4", "examples/tutorial/example2.py:step5", "examples/tutorial/example3.py:step1", "examples/tutorial/example3.py:step2", "examples/tutorial/example3.py:step3", "examples/tutorial/example3.py:step4", "examples/datacamp-blogpost/03-someone-to-say-hello-world-to.py", "examples/datacamp-blogpost/04-you-always-say-that.py", "examples/datacamp-blogpost/05-it-aint-what-yo-do-it-s-the-time-that-you-do-it.py", "examples/datacamp-blogpost/06-the-social-network.py", "trumania/core/circus.py:Circus.run", "trumania/core/story.py:Story.execute"]}
{"id": "C133", "title": "A population saved on its own is the same in any circus that loads it", "statement": "A population that its files can carry (ids and values that keep their type in a text file, relationships that are not empty), of a circus or of none, can be saved under any namespace and id: this replaces what was there, the rest of the files is kept, and only the folders on the way appear. Then any circus can load it, in whatever order the folders are listed: the circus gets one population more, of the same members, with the same value for each attribute and the same relations in each relationship, and no other relationship, known under that id. If a population had this id it is replaced; the other populations, the attached generators, the stories, the clock and the files do not change. The relationships are new objects, which start again from their seed.", "quantifier": "all populations that can be stored, namespaces, ids, file trees, circuses, listing orders", "why_tests_cant": "all populations, file trees and circuses", "anchors": ["trumania/components/db.py:save_population", "trumania/components/db.py:load_population", "trumania/core/circus.py:Circus.load_population", "trumania/core/population.py:Population.save_to", "trumania/core/population.py:Population.load_from"]}
{"id": "C134", "title": "The example of songs with persistence tells the same stories", "statement": "The example4.py of the tutorial makes the genres and the songs outside of any circus, saves them, loads them in a circus, adds the users, saves this circus and loads it again, and adds to it the stories that listen and share. When this succeeds and the files can carry what is saved, the circus that will run has the same genres, songs (with their attributes and the genre of each) and users as step 4 of example3.py has, and the same stories, with the generators that draw a genre and a user: so all that is proved of the logs of step 4 holds for it. With a genre, songs for each genre, a user, clock steps that last and timers that are numbers, the run of this circus never raises, whatever its duration, if the folder of the logs is absent or deleted by the run and no file is in the way of its creation.", "quantifier": "all sizes, generators, seeds, random draws, file trees, listing orders", "why_tests_cant": "all sizes, random draws and file trees", "anchors": ["examples/tutorial/example4.py", "trumania/components/db.py:save_population", "trumania/components/db.py:remove_namespace", "trumania/core/circus.py:Circus.load_population", "trumania/core/circus.py:Circus.save_to_db", "trumania/core/circus.py:Circus.load_from_db"]}
{"id": "C135", "title": "The examples of the presentation: who talks to whom, and what is said", "statement": "In the examples 3 to 8 of the presentation, with any number of persons, any generators and any random draws, and in any run of what they build: the story writes only in the log hello, and each of its executions writes one record for each person whose timer is 0, in the order of the persons, and nothing if there is none. A record has exactly the fields that the example asks for, in that order, or all the fields of the story in examples 3 and 7, which ask for none: a date inside the step of the clock, the id of the person or its name, and a message; from example 4 on also the id or the name (or both) of some person of the population, which may be the person itself. The message is 'hello world' in examples 3 and 4, a value that the generator of sentences gives in examples 5, 6 and 8, and in example 7 one of the quotes drawn for this person, never one that it only has with weight 0; these quotes were given by the generator of sentences, and the names by the generator of names. The persons, with names and ages, and the quotes never change. In examples 3 to 7 all persons talk at the second execution, at the fourth one, and so on, and nobody in between, so that the persons of the whole log are known; in example 8 the activities of the persons are 10, 20 or 30.", "quantifier": "all numbers of persons, generators, seeds, random draws, durations and states that the examples reach", "why_tests_cant": "all states, histories and random draws", "anchors": ["examples/presentation/03_circus_with_story.py", "examples/presentation/04_circus_with_story.py", "examples/presentation/05_circus_with_story.py", "examples/presentation/06_circus_with_story.py", "examples/presentation/07_circus_with_story_and_relationship.py", "examples/presentation/08_circus_with_timed_story.py", "trumania/core/story.py:Story.execute", "trumania/core/relationship.py:Relationship.select_one", "trumania/core/operations.py:FieldLogger.emit_logs"]}
{"id": "C136", "title": "The examples of the presentation run to the end", "statement": "Once one of the examples 3 to 8 of the presentation is built, with any random draws, its run never raises, whatever its duration. For this the steps of the clock must last at least one second, there must be a person (except in example 3), the generator of sentences must always give values in examples 5, 6 and 8, and the generator of timers always numbers in example 8. The folder of the logs must be absent or be deleted by the run, and no file may be in the way of its creation.", "quantifier": "all numbers of persons, generators, seeds, random draws, durations of the run, file trees", "why_tests_cant": "all histories and random draws; a run that raises after days of simulated time is not found by running it for a few steps", "anchors": ["examples/presentation/03_circus_with_story.py", "examples/presentation/04_circus_with_story.py", "examples/presentation/05_circus_with_story.py", "examples/presentation/06_circus_with_story.py", "examples/presentation/07_circus_with_story_and_relationship.py", "examples/presentation/08_circus_with_timed_story.py", "trumania/core/circus.py:Circus.run", "trumania/core/story.py:Story.execute"]}
{"id": "C137", "title": "The examples of the blog and of the presentation can always be built", "statement": "The creation of the circus and the steps of the examples 3 to 8 of the presentation, and those of the examples 3 to 6 of the blog, never raise, with any random draws, any seed and any number of persons, if the generators of names, ages and sentences always give values and, in the examples that have a timer of activities, that of timers always numbers. The one exception is the example 6 of the blog without persons, which is never built, as its network divides the average degree by the number of persons. With this, the whole of a script (creation, building, run) never raises, under the conditions under which its run does not, except for the run of the example 6 of the blog, which needs a friend for each person.", "quantifier": "all numbers of persons, generators, seeds, random draws, durations of the run, file trees", "why_tests_cant": "all sizes, seeds and random draws; the script that is run builds one circus", "anchors": ["examples/presentation/03_circus_with_story.py", "examples/presentation/08_circus_with_timed_story.py", "examples/datacamp-blogpost/03-someone-to-say-hello-world-to.py", "examples/datacamp-blogpost/04-you-always-say-that.py", "examples/datacamp-blogpost/05-it-aint-what-yo-do-it-s-the-time-that-you-do-it.py", "examples/datacamp-blogpost/06-the-social-network.py", "trumania/core/population.py:Population.create_attribute", "trumania/core/population.py:Population.create_relationship", "trumania/core/circus.py:Circus.create_population", "trumania/core/circus.py:Circus.create_story"]}
{"id": "C138", "title": "The steps of the hello example of the tutorial never raise", "statement": "The creation of the circus, the building and the run of each of the seven steps of the first example of the tutorial never raise, with any random draws, any seed and any number of persons, if there is a site, the names are always given, the durations are amounts and, in steps 6 and 7, the popularities are positive numbers and the network of friends has an edge whenever there are persons. Conversely, steps 6 and 7 with persons and a network without any edge are never built.", "quantifier": "all steps, numbers of persons and sites, generators, seeds, random draws, durations of the run, file trees", "why_tests_cant": "all sizes, seeds and random draws; the script that is run builds one circus", "anchors": ["examples/tutorial/example1.py", "trumania/core/util_functions.py:make_random_bipartite_data", "trumania/core/population.py:Population.create_attribute", "trumania/core/population.py:Population.create_relationship", "trumania/core/circus.py:Circus.create_population", "trumania/core/circus.py:Circus.create_story"]}
{"id": "C139", "title": "The steps of the example of songs of the tutorial never raise", "statement": "The creation of the circus, the building and the run of each of the four steps of the third example of the tutorial never raise, with any random draws, any seed and any numbers of songs, users and artists, if there are as many names as genres, at least one genre, one song per genre and, in steps 3 and 4, one user, one artist in step 4, and the generators always give values of the right kind (names, numbers for timers, activities, years and durations). The building itself, and the whole of step 1, need no genre, song or user. Genres with another number of names, however, always make the building raise, and so does step 4 without artists in a case.", "quantifier": "all steps, numbers of genres, songs, users and artists, generators, seeds, random draws, durations of the run, file trees", "why_tests_cant": "all sizes, seeds and random draws; the script that is run builds one circus", "anchors": ["examples/tutorial/example3.py", "trumania/core/population.py:Population.create_attribute", "trumania/core/population.py:Population.update", "trumania/core/population.py:Population.create_relationship", "trumania/core/circus.py:Circus.create_population", "trumania/core/circus.py:Circus.create_story"]}
{"id": "C140", "title": "The steps of the example of points of sale of the tutorial never raise", "statement": "The creation of the circus, the building and the run of each of the steps 1, 2, 3, 3bis, 4 and 5 of the second example of the tutorial never raise, with any random draws, any seed and any numbers of points of sale, customers and items, if the clock has a step of at least one second, there is a point of sale in steps 4 and 5, and the generators always give values of the right kind (names, numbers for timers and activities, numbers of items for the volumes). The building itself needs no point of sale, and any positive step of the clock; a step of zero, however, always makes it raise.", "quantifier": "all steps, numbers of points of sale, customers and items, generators, seeds, random draws, durations of the run, file trees", "why_tests_cant": "all sizes, seeds and random draws; the script that is run builds one circus", "anchors": ["examples/tutorial/example2.py", "trumania/core/population.py:Population.create_attribute", "trumania/core/population.py:Population.create_relationship", "trumania/core/circus.py:Circus.create_population", "trumania/core/circus.py:Circus.create_story", "trumania/core/clock.py:Clock.n_iterations"]}
{"id": "C141", "title": "The sales and distribution scenario, once built, never raises", "statement": "In the scenario of test_snd.py, once its circus is built, no execution of any of the six stories raises, whatever stories were executed before, in whatever order, and whatever the number of steps of the clock in between; so a run of any duration completes. In particular a sale by a dealer without any SIM, a restock of nothing, and bulk purchases by several dealers from one distributor do not raise. This needs steps of at least one second, ids and texts that are always given, timers that are always drawn, sizes of bulk purchases that are whole numbers, as truncated Pareto draws are, and weights of dealers that are not negative: with other sizes, or with negative weights, a story raises.", "quantifier": "all numbers of agents, dealers, distributors and SIMs, seeds, random draws, sequences of executions and steps, durations of the run, file trees", "why_tests_cant": "any duration, any order of stories, all sizes and random draws; the test runs one scenario of one size for some days", "anchors": ["tests/scenarios/test_snd.py", "trumania/core/operations.py:Chain", "trumania/core/population.py:PopulationOps.Lookup", "trumania/core/attribute.py:Attribute.add", "trumania/core/relationship.py:Relationship.select_many", "trumania/core/story.py:Story.execute", "trumania/core/circus.py:Circus.run"]}
{"id": "C142", "title": "The sales and distribution scenario is always built, and never raises from the creation of its circus to the end of its run", "statement": "The constructor of the scenario of test_snd.py never raises, whatever the seed, when ids are sequential, names, weights, sizes and activities are always given, there is at least one agent, there are distributors and dealers for the SIMs to be given to, there is a distributor if there are dealers, and the network of agents and dealers has an edge when there are dealers and a degree. Together with C141, the creation of the circus, its construction and a run of any duration then all complete. The parameters matter: without agents the scenario is never built, and without distributors, without dealers, or with a network that has no edge, the constructor raises ValueError. The scenario can be built with no dealers at all, if no SIM is to be given to them.", "quantifier": "all numbers of agents, dealers, distributors and SIMs, seeds, random draws, networks, set orders, durations of the run, file trees", "why_tests_cant": "all sizes, seeds and networks; the test builds one scenario of one size with one seed", "anchors": ["tests/scenarios/test_snd.py", "trumania/core/circus.py:Circus.create_population", "trumania/core/circus.py:Circus.create_story", "trumania/core/story.py:Story.__init__", "trumania/core/relationship.py:Relationship.add_relations", "trumania/core/circus.py:Circus.run"]}
{"id": "C143", "title": "The first two examples of the blog and of the presentation never raise, and show or log what they say", "statement": "The first example of the blog shows a table of the first ten persons, in the order of their ids, with the columns NAME and AGE: each cell has the value of the attribute of that person, which the generator of names (of ages) gave. The first example of the presentation, a circus with nothing in it, runs for the least number of steps that covers the duration: no log is written, the folder of the logs is removed if there was one, no other file changes, and only the date moves. The second example of the presentation runs likewise with persons, who are not changed, and then shows the same table of them. The second example of the blog writes only the log hello, which has the records of all the persons, in order, at every second step of the clock, each with the id of the person, a date in the step and the text hello world. None of them raises, from the creation of the circus to the end, if the generators of names and of ages always give values.", "quantifier": "all numbers of persons, seeds, generators, durations of the run, steps of the clock, folders and file trees", "why_tests_cant": "these scripts have no tests; all sizes, durations and file trees", "anchors": ["examples/datacamp-blogpost/01-a-basic-user-population.py", "examples/datacamp-blogpost/02-hello-world-statements.py", "examples/presentation/01_empty_circus.py", "examples/presentation/02_circus_with_actor.py", "trumania/core/population.py:Population.to_dataframe", "trumania/core/circus.py:Circus.run"]}
